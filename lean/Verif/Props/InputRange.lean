import Verif.Lemmas.MinuteRun

/-!
# Property C86: what the field range of an interval type decides on input

`INTERVAL f TO g` with a precision `n` has the type modifier `intervalTypmod (rangeMask f g) n`. The text `s` is any sequence of
bytes. `c` is the state of the thread's keyword caches, `u` the uninitialised type of a lone sign.
-/

namespace Pg
open Spec

theorem interval_sameRange {p : Profile} {u : TokenField} {c : Caches} (hc : c.Ok) {s : Bytes} {t t' : Int} (style : IntervalStyle)
    (hu : rangeUnit (parseRange t) = rangeUnit (parseRange t'))
    (h : ∀ l, scan u s = .ok l → ∀ f ∈ l, SameClock (parseRange t) (parseRange t') f.2)
    (ha : ∀ v : Interval, v.adjustByTypmod p t = v.adjustByTypmod p t') :
    Interval.tryFromStr p u c s t style = Interval.tryFromStr p u c s t' style := by
  cases hs : scan u s with
  | panic => rw [interval_noScan hc t style (Or.inl ⟨hs, rfl⟩), interval_noScan hc t' style (Or.inl ⟨hs, rfl⟩)]
  | err e => rw [interval_noScan hc t style (Or.inr ⟨e, hs, rfl⟩), interval_noScan hc t' style (Or.inr ⟨e, hs, rfl⟩)]
  | ok l =>
    have hd : decodeInterval p plainLook (parseRange t) style l = decodeInterval p plainLook (parseRange t') style l := by
      unfold decodeInterval
      rw [intervalLoop_eq (h l hs) hu]
    rcases hr : St.orElse (decodeInterval p plainLook (parseRange t') style l) (noLook (decodeIsoInterval p s)) ({}, ()) with ⟨r, d, w⟩
    rw [interval_run p u hc t style hs (r := r) (d := d) (w := w) (by rw [hd]; exact hr), interval_run p u hc t' style hs hr]
    have : Interval.ofDec p d t = Interval.ofDec p d t' := by
      unfold Interval.ofDec
      simp only [ha]
    rw [this]

theorem parseRange_typmod {f g : SqlField} (h : SqlRange f g) {n : Nat} (hn : n < 65536) :
    parseRange (Props.intervalTypmod (rangeMask f g) n) = rangeMask f g := by
  have hlt : rangeMask f g < 0x7FFF := by cases f <;> cases g <;> decide
  unfold parseRange
  rw [if_pos (by unfold Props.intervalTypmod; omega), (Props.intervalRange_typmod (by omega) hn).1]

theorem adjust_last {p : Profile} {f f' g : SqlField} (h : SqlRange f g) (h' : SqlRange f' g) {n : Nat} (hn : n < 65536) (v : Interval) :
    v.adjustByTypmod p (Props.intervalTypmod (rangeMask f g) n) = v.adjustByTypmod p (Props.intervalTypmod (rangeMask f' g) n) := by
  have hlt : rangeMask f g < 0x7FFF := by cases f <;> cases g <;> decide
  have hlt' : rangeMask f' g < 0x7FFF := by cases f' <;> cases g <;> decide
  have e : v.adjustRange (rangeMask f g) = v.adjustRange (rangeMask f' g) := by
    cases f <;> cases f' <;> cases g <;> first
      | exact absurd h (by decide)
      | exact absurd h' (by decide)
      | rfl
  unfold Interval.adjustByTypmod
  rw [if_pos (by unfold Props.intervalTypmod; omega), if_pos (by unfold Props.intervalTypmod; omega),
    (Props.intervalRange_typmod (by omega) hn).1, (Props.intervalRange_typmod (by omega) hn).2,
    (Props.intervalRange_typmod (by omega) hn).1, (Props.intervalRange_typmod (by omega) hn).2]
  simp only [e]

theorem notMS {typmod : Int} (h : 0 ≤ typmod → typmod / 65536 % 32768 ≠ rangeMask .minute .second) :
    parseRange typmod = INTERVAL_MASK_MS ↔ parseRange (-1) = INTERVAL_MASK_MS := by
  refine ⟨fun e => ?_, fun e => by cases e⟩
  exfalso
  unfold parseRange at e
  split at e
  · rename_i h0
    refine h h0 ?_
    unfold Interval.intervalRange at e
    rw [Nat.shiftRight_eq_div_pow, show (0x7FFF : Nat) = 2 ^ 15 - 1 from rfl, Nat.and_two_pow_sub_one_eq_mod] at e
    rw [show rangeMask .minute .second = INTERVAL_MASK_MS by decide]
    omega
  · cases e

end Pg

namespace Props
open Pg Spec

/-- `MINUTE TO SECOND`. -/
def MinuteSecond (f g : SqlField) : Prop := f = .minute ∧ g = .second

instance (f g : SqlField) : Decidable (MinuteSecond f g) := inferInstanceAs (Decidable (_ ∧ _))

theorem mask_minuteSecond {f g : SqlField} (h : SqlRange f g) : rangeMask f g = INTERVAL_MASK_MS ↔ MinuteSecond f g := by
  cases f <;> cases g <;> first | exact absurd h (by decide) | decide

/-- **C86, the first field.** Of the range only the last field matters, for every text, unless one of the ranges is
`MINUTE TO SECOND` and the text has a colon (byte 58). -/
theorem C86_first (p : Profile) (u : TokenField) (c : Caches) (hc : c.Ok) (style : IntervalStyle) (s : Bytes) (f f' g : SqlField)
    (h : SqlRange f g) (h' : SqlRange f' g) (n : Nat) (hn : n < 65536)
    (hms : ¬ MinuteSecond f g ∧ ¬ MinuteSecond f' g ∨ ∀ b ∈ s, b ≠ 58) :
    Interval.tryFromStr p u c s (intervalTypmod (rangeMask f g) n) style =
      Interval.tryFromStr p u c s (intervalTypmod (rangeMask f' g) n) style := by
  refine interval_sameRange hc style ?_ ?_ (adjust_last h h' hn)
  · rw [parseRange_typmod h hn, parseRange_typmod h' hn]
    cases f <;> cases f' <;> cases g <;> first
      | exact absurd h (by decide)
      | exact absurd h' (by decide)
      | rfl
  · intro l hl x hx
    rw [parseRange_typmod h hn, parseRange_typmod h' hn]
    rcases hms with ⟨h1, h2⟩ | hs
    · exact Or.inl ⟨fun e => absurd ((mask_minuteSecond h).1 e) h1, fun e => absurd ((mask_minuteSecond h').1 e) h2⟩
    · exact Or.inr (Or.inl (scan_noColon hs hl x hx))

/-- A number without a unit is in the unit of the last field, whatever the first is. -/
example : SqlRange .day .minute ∧ SqlRange .hour .minute ∧ ¬ MinuteSecond .day .minute ∧ ¬ MinuteSecond .hour .minute ∧
    Interval.tryFromStr .debug .date Caches.new b!"7 days 90" (intervalTypmod (rangeMask .day .minute) 3) .postgres = .ok ⟨0, 7, 5400000000⟩ ∧
    Interval.tryFromStr .debug .date Caches.new b!"7 days 90" (intervalTypmod (rangeMask .hour .minute) 3) .postgres = .ok ⟨0, 7, 5400000000⟩ ∧
    Interval.tryFromStr .debug .date Caches.new b!"7 days 90" (intervalTypmod (rangeMask .hour .second) 3) .postgres = .ok ⟨0, 7, 90000000⟩ := by
  decide +kernel
/-- The exception. -/
example : Interval.tryFromStr .debug .date Caches.new b!"5:06" (intervalTypmod (rangeMask .hour .second) 3) .postgres = .ok ⟨0, 0, 18360000000⟩ ∧
    Interval.tryFromStr .debug .date Caches.new b!"5:06" (intervalTypmod (rangeMask .minute .second) 3) .postgres = .ok ⟨0, 0, 306000000⟩ := by
  decide +kernel

/-- **C86, ranges to the second.** They change nothing, for every text, unless the range is `MINUTE TO SECOND` and the text has a colon. -/
theorem C86_second (p : Profile) (u : TokenField) (c : Caches) (hc : c.Ok) (style : IntervalStyle) (s : Bytes) (f : SqlField)
    (h : SqlRange f .second) (hms : ¬ MinuteSecond f .second ∨ ∀ b ∈ s, b ≠ 58) :
    Interval.tryFromStr p u c s (intervalTypmod (rangeMask f .second) 0xFFFF) style = Interval.tryFromStr p u c s (-1) style := by
  refine interval_sameRange hc style ?_ ?_ fun v => ?_
  · rw [parseRange_typmod h (by omega)]
    cases f <;> first | exact absurd h (by decide) | rfl
  · intro l hl x hx
    rw [parseRange_typmod h (by omega)]
    rcases hms with h1 | hs
    · exact Or.inl ⟨fun e => absurd ((mask_minuteSecond h).1 e) h1, fun e => by cases e⟩
    · exact Or.inr (Or.inl (scan_noColon hs hl x hx))
  · have hlt : rangeMask f .second < 0x7FFF := by cases f <;> decide
    have e : v.adjustRange (rangeMask f .second) = .ok v := by
      cases f <;> first
        | exact absurd h (by decide)
        | rfl
    unfold Interval.adjustByTypmod
    rw [if_pos (by unfold Props.intervalTypmod; omega), if_neg (by omega), (Props.intervalRange_typmod (by omega) (by omega)).1,
      (Props.intervalRange_typmod (by omega) (by omega)).2]
    simp only [e]
    rfl

example : SqlRange .day .second ∧ ¬ MinuteSecond .day .second ∧
    Interval.tryFromStr .debug .date Caches.new b!"1 year -5:06:07.25" (intervalTypmod (rangeMask .day .second) 0xFFFF) .postgres =
      .ok ⟨12, 0, -18367250000⟩ ∧
    Interval.tryFromStr .debug .date Caches.new b!"1 year -5:06:07.25" (-1) .postgres = .ok ⟨12, 0, -18367250000⟩ := by
  decide +kernel

/-- **C86, a word at the end.** If the text ends in a word `w` other than `invalid` and `undefined`, in any letter case (a unit, `ago`, or
the last letter of an ISO interval), a type modifier only adjusts the interval read without it: `x` is the text before
the word. Again a text with a colon under `MINUTE TO SECOND` is the exception. -/
theorem C86_word (p : Profile) (u : TokenField) (c : Caches) (hc : c.Ok) (style : IntervalStyle) (x w : Bytes)
    (hw : ∀ b ∈ w, Letter b) (nw : w ≠ []) (hx : ∀ l, x.getLast? = some l → ¬ Letter l)
    (hno : ¬ SameButCase w b!"invalid" ∧ ¬ SameButCase w b!"undefined") (typmod : Int)
    (hms : (0 ≤ typmod → typmod / 65536 % 32768 ≠ rangeMask .minute .second) ∨ ∀ b ∈ x, b ≠ 58) :
    Interval.tryFromStr p u c (x ++ w) typmod style =
      (Interval.tryFromStr p u c (x ++ w) (-1) style >>= fun v => v.adjustByTypmod p typmod) := by
  have hwl : Letters w := fun b hb => (isAlpha_iff b).2 (hw b hb)
  have he : EndsIn w (x ++ w) := ⟨x, rfl, fun l hl => by
    cases ha : isAlpha l with
    | false => rfl
    | true => exact absurd ((isAlpha_iff l).1 ha) (hx l hl)⟩
  refine interval_adjust hc typmod style fun l hl => ?_
  obtain ⟨l', f, rfl, hf⟩ := scan_last hwl nw he hl
  refine decodeInterval_last (word_lastSame hwl hf ?_) (fun g hg => ?_) style
  · unfold SameButCase at hno
    unfold lower
    rw [show lowerB = smallLetter from funext lowerB_letter]
    exact hno
  · rcases hms with h | h
    · exact Or.inl (notMS h)
    · refine Or.inr (Or.inl (scan_noColon ?_ hl g (by simp [hg])))
      intro b hb
      rcases List.mem_append.1 hb with hb | hb
      · exact h b hb
      · rintro rfl
        have := hwl _ hb
        cases this

example : (∀ b ∈ b!"hours", Letter b) ∧ (∀ l, (b!"2 days 31.5 ").getLast? = some l → ¬ Letter l) ∧
    ¬ SameButCase b!"hours" b!"invalid" ∧ ¬ SameButCase b!"hours" b!"undefined" ∧
    Interval.tryFromStr .debug .date Caches.new b!"2 days 31.5 hours" (-1) .postgres = .ok ⟨0, 2, 113400000000⟩ ∧
    Interval.tryFromStr .debug .date Caches.new b!"2 days 31.5 hours" (intervalTypmod (rangeMask .hour .hour) 0xFFFF) .postgres =
      .ok ⟨0, 2, 111600000000⟩ ∧
    Interval.tryFromStr .debug .date Caches.new b!"P2DT31H30M" (intervalTypmod (rangeMask .hour .hour) 0xFFFF) .postgres =
      .ok ⟨0, 2, 111600000000⟩ := by
  refine ⟨by unfold Letter; decide, ?_, by unfold SameButCase; decide, by unfold SameButCase; decide, by decide +kernel⟩
  intro l hl
  cases hl
  unfold Letter; decide

/-- **C86, the documented forms.** A text of quantities, years-months and clock times (`IvPart`, as in C71) always ends in a field that
has its unit, so a type modifier only adjusts the interval read without it; the range `MINUTE TO SECOND` is the exception. -/
theorem C86_parts (p : Profile) (u : TokenField) (c : Caches) (hc : c.Ok) (style : IntervalStyle) (ps : List IvPart)
    (hok : ∀ a ∈ ps, a.Ok) (hne : ps ≠ []) (hn : ps.length ≤ 12) (ago : Option Bytes) (ha : ∀ w ∈ ago, AgoWord w)
    (hl : (partsText ps ago).length ≤ 128) (typmod : Int)
    (hms : 0 ≤ typmod → typmod / 65536 % 32768 ≠ rangeMask .minute .second) :
    Interval.tryFromStr p u c (partsText ps ago) typmod style =
      (Interval.tryFromStr p u c (partsText ps ago) (-1) style >>= fun v => v.adjustByTypmod p typmod) := by
  have hR := notMS hms
  refine interval_adjust hc typmod style fun l hs => ?_
  obtain rfl := Res.ok.inj (hs.symm.trans (scan_partsText hok hne hn ha hl))
  obtain ⟨l', f, e, hf⟩ := parts_last (p := p) (R := parseRange typmod) (R' := parseRange (-1)) hok
    (fun a _ => by cases a <;> first | trivial | exact Or.inl hR) hne ago
  rw [e]
  exact decodeInterval_last hf (fun g _ => Or.inl hR) style

/-- `3 5:06` -/
def shortParts : List IvPart := [.clock (some (none, b!"3")) none (.short b!"5" b!"06")]

example : partsText shortParts none = b!"3 5:06" ∧ (∀ a ∈ shortParts, a.Ok) ∧
    Interval.tryFromStr .debug .date Caches.new (partsText shortParts none) (-1) .postgres = .ok ⟨0, 3, 18360000000⟩ ∧
    Interval.tryFromStr .debug .date Caches.new (partsText shortParts none) (intervalTypmod (rangeMask .day .hour) 0xFFFF) .postgres =
      .ok ⟨0, 3, 18000000000⟩ := by
  refine ⟨by decide, ?_, by decide +kernel⟩
  intro a ha
  obtain rfl := List.mem_singleton.1 ha
  exact ⟨fun e he => by cases he; decide, ⟨by decide, by decide⟩, rfl⟩

/-- **C86, minutes and seconds.** Under `MINUTE TO SECOND`, for any precision, two numbers of a clock time are minutes and seconds:
the text is read like the one with `0:` in front of them, and the type modifier only adjusts the interval read. -/
theorem C86_minutes (p : Profile) (u : TokenField) (c : Caches) (hc : c.Ok) (style : IntervalStyle) (ps : List IvPart)
    (hok : ∀ a ∈ ps, a.Ok) (hne : ps ≠ []) (hn : ps.length ≤ 12) (ago : Option Bytes) (ha : ∀ w ∈ ago, AgoWord w)
    (hl : (partsText ps ago).length ≤ 128) (hl' : (partsText (ps.map IvPart.minutesSeconds) ago).length ≤ 128)
    (n : Nat) (hn' : n < 65536) :
    Interval.tryFromStr p u c (partsText ps ago) (intervalTypmod (rangeMask .minute .second) n) style =
      (Interval.tryFromStr p u c (partsText (ps.map IvPart.minutesSeconds) ago) (-1) style >>= fun v =>
        v.adjustByTypmod p (intervalTypmod (rangeMask .minute .second) n)) := by
  have hr : SqlRange .minute .second := by decide
  have hR := (parseRange_typmod hr hn').trans (show rangeMask .minute .second = INTERVAL_MASK_MS by decide)
  have hok' : ∀ a ∈ ps.map IvPart.minutesSeconds, a.Ok := by
    intro a h
    obtain ⟨b, hb, rfl⟩ := List.mem_map.1 h
    exact minSec_ok (hok b hb)
  have hne' : ps.map IvPart.minutesSeconds ≠ [] := by simpa using hne
  have hlen' : (ps.map IvPart.minutesSeconds).length ≤ 12 := by simpa using hn
  have hs := scan_partsText (u := u) hok hne hn ha hl
  have hs' := scan_partsText (u := u) hok' hne' hlen' ha hl'
  rw [interval_alike hc hs hs' (partsText_head hok hne ago) (partsText_head hok' hne' ago)
    (by rw [hR]; exact minSec_fields hok _) ?_]
  · refine interval_adjust hc _ style fun l hs => ?_
    obtain rfl := Res.ok.inj (hs.symm.trans hs')
    have hsame : ∀ a ∈ ps.map IvPart.minutesSeconds, PartSame (parseRange (intervalTypmod (rangeMask .minute .second) n)) (parseRange (-1)) a := by
      intro a h
      obtain ⟨b, hb, rfl⟩ := List.mem_map.1 h
      exact minSec_same (hok b hb)
    have hall := parts_sameClock hok' hsame ago
    obtain ⟨l', f, e, hf⟩ := parts_last (p := p) hok' hsame hne' ago
    rw [e] at hall ⊢
    exact decodeInterval_last hf (fun g hg => hall g (by simp [hg])) style
  · have e : LoneMinus (ps.map IvPart.minutesSeconds) ↔ LoneMinus ps := by
      unfold LoneMinus
      rw [List.map_map, show IvPart.signs ∘ IvPart.minutesSeconds = IvPart.signs from funext minSec_signs]
    intro t
    by_cases h : style = .sqlStandard ∧ LoneMinus ps
    · rw [(sqlSign_parts hok hne ago t).2 h, (sqlSign_parts hok' hne' ago t).2 ⟨h.1, e.2 h.2⟩]
    · rw [(sqlSign_parts hok hne ago t).1 h, (sqlSign_parts hok' hne' ago t).1 fun q => h ⟨q.1, e.1 q.2⟩]

example : partsText (shortParts.map IvPart.minutesSeconds) none = b!"3 0:5:06" ∧
    Interval.tryFromStr .debug .date Caches.new (partsText shortParts none) (intervalTypmod (rangeMask .minute .second) 3) .postgres =
      .ok ⟨0, 3, 306000000⟩ ∧
    Interval.tryFromStr .debug .date Caches.new b!"3 0:5:06" (-1) .postgres = .ok ⟨0, 3, 306000000⟩ ∧
    (Interval.tryFromStr .debug .date Caches.new b!"75:06" (intervalTypmod (rangeMask .minute .second) 3) .postgres) = .err .invalid := by
  decide +kernel

end Props
