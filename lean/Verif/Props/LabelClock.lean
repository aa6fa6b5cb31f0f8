import Verif.Lemmas.LabelClockTime
import Verif.Props.Labels

/-!
# Property C75: clock times with labels

A clock time may be written with the labels `h`, `mm` and `s` before its numbers, in any order, some of them left out;
after a day and an hour, `m` too is a label for minutes. `c` is the state of the thread's keyword caches, `u` the
uninitialised type of a lone sign.
-/

namespace Props
open Pg Spec

/-- **C75, times of day.** Numbers with labels, optionally with `AM` or `PM`, are the time with that hour, minute and
second, 0 for those left out; an error if one is out of range. -/
theorem C75_time (p : Profile) (u : TokenField) (c : Caches) (hc : c.Ok) (order : DateOrder) (parts : List ClockPart)
    (hne : parts ≠ []) (hok : PartsOk false false parts) (hf : FirstOk parts) (mer : Option Bool) (t : Bytes)
    (ht : MeridiemText mer t) :
    ∃ us, NearestMicros (clockFrac parts) us ∧
      match hourOf mer (clockNumber .hour parts) with
      | some k =>
        if ClockInput k (clockNumber .minute parts) (clockNumber .second parts) us then
          Time.tryFromStr p u c (labelClock parts ++ t) (-1) order =
            .ok ⟨clockValue k (clockNumber .minute parts) (clockNumber .second parts) us⟩
        else (Time.tryFromStr p u c (labelClock parts ++ t) (-1) order).IsErr
      | none => (Time.tryFromStr p u c (labelClock parts ++ t) (-1) order).IsErr :=
  ⟨labelUs parts, labelUs_nearest hok, time_labelClock u hc hok hf hne ht rfl⟩

example : labelClock [⟨[], .hour, b!"h", [], b!"10", none⟩, ⟨b!" ", .minute, b!"MM", b!" ", b!"20", none⟩,
      ⟨b!", ", .second, b!"s", [], b!"30", some b!"5"⟩] ++ b!" pm" = b!"h10 MM 20, s30.5 pm" ∧
    Time.tryFromStr .debug .date Caches.new b!"h10 MM 20, s30.5 pm" (-1) .ymd = .ok ⟨clockValue 22 20 30 500000⟩ := by
  decide +kernel
example : PartsOk false false [⟨[], .hour, b!"h", [], b!"10", none⟩, ⟨b!" ", .minute, b!"MM", b!" ", b!"20", none⟩,
      ⟨b!", ", .second, b!"s", [], b!"30", some b!"5"⟩] := by
  simp [PartsOk, ClockPart.Ok, SameButCase, Beside, Between, DigitsOf, Digits, ClockLabel.word, smallLetter]
example : (Time.tryFromStr .debug .date Caches.new b!"h25" (-1) .ymd).IsErr ∧
    Time.tryFromStr .debug .date Caches.new b!"s7" (-1) .ymd = .ok ⟨clockValue 0 0 7 0⟩ := by
  constructor
  · exact ⟨.overflow, by decide +kernel⟩
  · decide +kernel

/-- What the code does for timestamps as long as no number is above 99: the clock time is not checked, hours from 24 on
lead to later days. -/
theorem C75_timestamp_exact (p : Profile) (u : TokenField) (c : Caches) (hc : c.Ok) (order : DateOrder) (D : DayText)
    (hD : D.Ok) (parts : List ClockPart) (hok : PartsOk true false parts) (hf : FirstOk parts)
    (mer : Option Bool) (t : Bytes) (ht : MeridiemText mer t) (bc : Bool)
    (h99 : ∀ k, hourOf mer (clockNumber .hour parts) = some k →
      k ≤ 99 ∧ clockNumber .minute parts ≤ 99 ∧ clockNumber .second parts ≤ 99)
    (text : Bytes) (he : text = D.bytes ++ labelClock parts ++ t ++ bcMark bc) :
    ∃ us, NearestMicros (clockFrac parts) us ∧
      match D.day order bc, hourOf mer (clockNumber .hour parts) with
      | some day, some k =>
        if TsRange (instant day ⟨k, clockNumber .minute parts, clockNumber .second parts, us⟩) then
          Timestamp.tryFromStr p u c text (-1) order =
            .ok ⟨instant day ⟨k, clockNumber .minute parts, clockNumber .second parts, us⟩⟩
        else (Timestamp.tryFromStr p u c text (-1) order).IsErr
      | _, _ => (Timestamp.tryFromStr p u c text (-1) order).IsErr := by
  refine ⟨labelUs parts, labelUs_nearest hok, ?_⟩
  have hl := day_len hD
  exact timestamp_labelClock (reads_dayText hD bc) hc hok h99
    (scan_labelClock u hl.1 (by omega) (by simp) (fun hr hs => scans_day' u hD hr hs) hok hf ht bc he)

/-- **C75, timestamps (partial).** A day and a clock time with labels, optionally with `AM` or `PM` and ` BC`, are the
instant they name. Missing: only clock times in range are covered; see `C75_violated`. -/
theorem C75_timestamp_partial (p : Profile) (u : TokenField) (c : Caches) (hc : c.Ok) (order : DateOrder) (D : DayText)
    (hD : D.Ok) (parts : List ClockPart) (hok : PartsOk true false parts) (hf : FirstOk parts)
    (mer : Option Bool) (t : Bytes) (ht : MeridiemText mer t) (bc : Bool)
    (hin : ∀ k us, hourOf mer (clockNumber .hour parts) = some k → NearestMicros (clockFrac parts) us →
      ClockInput k (clockNumber .minute parts) (clockNumber .second parts) us)
    (text : Bytes) (he : text = D.bytes ++ labelClock parts ++ t ++ bcMark bc) :
    ∃ us, NearestMicros (clockFrac parts) us ∧
      match D.day order bc, hourOf mer (clockNumber .hour parts) with
      | some day, some k =>
        if ClockInput k (clockNumber .minute parts) (clockNumber .second parts) us ∧
            TsRange (instant day ⟨k, clockNumber .minute parts, clockNumber .second parts, us⟩) then
          Timestamp.tryFromStr p u c text (-1) order =
            .ok ⟨instant day ⟨k, clockNumber .minute parts, clockNumber .second parts, us⟩⟩
        else (Timestamp.tryFromStr p u c text (-1) order).IsErr
      | _, _ => (Timestamp.tryFromStr p u c text (-1) order).IsErr := by
  obtain ⟨us, hus, h⟩ := C75_timestamp_exact p u c hc order D hD parts hok hf mer t ht bc (by
    intro k hk
    obtain ⟨c1, c2, c3, -⟩ := hin k _ hk (labelUs_nearest hok)
    omega) text he
  refine ⟨us, hus, ?_⟩
  cases hd : D.day order bc with
  | none => rw [hd] at h; exact h
  | some day =>
    cases hk : hourOf mer (clockNumber .hour parts) with
    | none => rw [hd, hk] at h; exact h
    | some k =>
      rw [hd, hk] at h
      exact ite_of h (by simp only [hin k us hk hus, true_and])

example : (DayText.numeric 45 b!"2024" b!"01" b!"02").bytes ++ labelClock [⟨b!" ", .hour, b!"H", [], b!"10", none⟩,
      ⟨[], .minute, b!"m", [], b!"20", none⟩, ⟨[], .second, b!"s", [], b!"30", some b!"5"⟩] = b!"2024-01-02 H10m20s30.5" ∧
    Timestamp.tryFromStr .debug .date Caches.new b!"2024-01-02 H10m20s30.5" (-1) .ymd =
      .ok ⟨instant ⟨2024, 1, 2⟩ ⟨10, 20, 30, 500000⟩⟩ := by decide +kernel
example : PartsOk true false [⟨b!" ", .hour, b!"H", [], b!"10", none⟩,
      ⟨[], .minute, b!"m", [], b!"20", none⟩, ⟨[], .second, b!"s", [], b!"30", some b!"5"⟩] := by
  simp [PartsOk, ClockPart.Ok, SameButCase, Beside, Between, DigitsOf, Digits, ClockLabel.word, smallLetter]

/-- **C75, timestamps with labelled days (partial).** The same after a day with labels, as in `y2024 m1 d2 h10 mm20 s30`. -/
theorem C75_labels_partial (p : Profile) (u : TokenField) (c : Caches) (hc : c.Ok) (order : DateOrder) (D : LabelText)
    (hD : D.Ok) (parts : List ClockPart) (hok : PartsOk true false parts) (hf : FirstOk parts)
    (mer : Option Bool) (t : Bytes) (ht : MeridiemText mer t) (bc : Bool)
    (hin : ∀ k us, hourOf mer (clockNumber .hour parts) = some k → NearestMicros (clockFrac parts) us →
      ClockInput k (clockNumber .minute parts) (clockNumber .second parts) us)
    (text : Bytes) (he : text = D.bytes ++ labelClock parts ++ t ++ bcMark bc) :
    ∃ us, NearestMicros (clockFrac parts) us ∧
      match D.day bc, hourOf mer (clockNumber .hour parts) with
      | some day, some k =>
        if ClockInput k (clockNumber .minute parts) (clockNumber .second parts) us ∧
            TsRange (instant day ⟨k, clockNumber .minute parts, clockNumber .second parts, us⟩) then
          Timestamp.tryFromStr p u c text (-1) order =
            .ok ⟨instant day ⟨k, clockNumber .minute parts, clockNumber .second parts, us⟩⟩
        else (Timestamp.tryFromStr p u c text (-1) order).IsErr
      | _, _ => (Timestamp.tryFromStr p u c text (-1) order).IsErr := by
  have hus := labelUs_nearest hok
  refine ⟨labelUs parts, hus, ?_⟩
  have hl := label_len' hD
  have h := timestamp_labelClock (p := p) (order := order) (reads_label hD bc) hc hok (by
    intro k hk
    obtain ⟨c1, c2, c3, -⟩ := hin k _ hk hus
    omega)
    (scan_labelClock u hl.1 hl.2 (by simp [labelFields, partFields]) (fun hr hs => scans_label u hD hr hs) hok hf ht bc he)
  cases hd : D.day bc with
  | none => rw [hd] at h; exact h
  | some day =>
    cases hk : hourOf mer (clockNumber .hour parts) with
    | none => rw [hd, hk] at h; exact h
    | some k =>
      rw [hd, hk] at h
      exact ite_of h (by simp only [hin k _ hk hus, true_and])

example : Timestamp.tryFromStr .debug .date Caches.new b!"y2024m1d2 h10m20s30.5pm BC" (-1) .ymd =
      .ok ⟨instant ⟨-2023, 1, 2⟩ ⟨22, 20, 30, 500000⟩⟩ := by decide +kernel

/-- **C75, dates (partial).** A day and a clock time with labels are the day. Missing as for timestamps. -/
theorem C75_date_partial (p : Profile) (u : TokenField) (c : Caches) (hc : c.Ok) (order : DateOrder) (D : DayText)
    (hD : D.Ok) (parts : List ClockPart) (hok : PartsOk true false parts) (hf : FirstOk parts)
    (mer : Option Bool) (t : Bytes) (ht : MeridiemText mer t) (bc : Bool)
    (hin : ∀ k us, hourOf mer (clockNumber .hour parts) = some k → NearestMicros (clockFrac parts) us →
      ClockInput k (clockNumber .minute parts) (clockNumber .second parts) us)
    (text : Bytes) (he : text = D.bytes ++ labelClock parts ++ t ++ bcMark bc) :
      match D.day order bc, hourOf mer (clockNumber .hour parts) with
      | some day, some _ =>
        if day.InDateRange then Date.tryFromStr p u c text order = .ok ⟨dayNumber day⟩
        else (Date.tryFromStr p u c text order).IsErr
      | _, _ => (Date.tryFromStr p u c text order).IsErr := by
  have hl := day_len hD
  have h := date_labelClock (p := p) (order := order) (reads_dayText hD bc) hc hok
    (scan_labelClock u hl.1 (by omega) (by simp) (fun hr hs => scans_day' u hD hr hs) hok hf ht bc he)
  cases hd : D.day order bc with
  | none => rw [hd] at h; exact h
  | some day =>
    cases hk : hourOf mer (clockNumber .hour parts) with
    | none => rw [hd, hk] at h; exact h
    | some k =>
      rw [hd, hk] at h
      have hr : day.Real := by rw [day_eq] at hd; exact namedDay_real hd
      have hn : ∀ P ∈ parts, NumOk P.digits := by
        obtain ⟨c1, c2, c3, -⟩ := hin k _ hk (labelUs_nearest hok)
        apply partsOk_num hok
        intro l
        cases l with
        | hour =>
          cases mer with
          | none => simp only [hourOf, Option.some.injEq] at hk; omega
          | some pm => have := hour24_in hk; omega
        | minute => omega
        | second => omega
      exact ite_of h (by rw [inDateRange_iff hr]; simp only [and_iff_right hn])

example : Date.tryFromStr .debug .date Caches.new b!"20240102 h10" .ymd = .ok ⟨dayNumber ⟨2024, 1, 2⟩⟩ := by decide +kernel

/-- **C75 is violated for timestamps**: `h99` is accepted and leads to another day, while `99:00` is rejected; a large
number makes a debug build panic and gives a release build a time on the day before. -/
theorem C75_violated :
    Timestamp.tryFromStr .debug .date Caches.new b!"2024-01-02 h99" (-1) .ymd =
      .ok ⟨instant ⟨2024, 1, 6⟩ ⟨3, 0, 0, 0⟩⟩ ∧
    (Timestamp.tryFromStr .debug .date Caches.new b!"2024-01-02 99:00" (-1) .ymd) = .err .overflow ∧
    Timestamp.tryFromStr .debug .date Caches.new b!"2024-01-02 h2147483647" (-1) .ymd = .panic ∧
    Timestamp.tryFromStr .release .date Caches.new b!"2024-01-02 h2147483647" (-1) .ymd =
      .ok ⟨instant ⟨2024, 1, 1⟩ ⟨23, 0, 0, 0⟩⟩ ∧
    Date.tryFromStr .debug .date Caches.new b!"2024-01-02 h99" .ymd = .ok ⟨dayNumber ⟨2024, 1, 2⟩⟩ := by decide +kernel

end Props
