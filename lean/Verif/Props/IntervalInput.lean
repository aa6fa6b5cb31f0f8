import Verif.Lemmas.IntervalIso
import Verif.Props.IntervalText

/-!
# Property C37: intervals are read back from their text

`cs` is the state of the thread's keyword caches, `u` the uninitialised type of a lone sign.
-/

namespace Props
open Pg Spec

/-- **C37 (partial).** Every interval of less than 2^31 minutes of time and more than `-2^31` days is read
back from its text: in the styles Postgres, verbose and SQL whatever its signs, in the style ISO 8601 if no
part of it is negative. Missing: the other intervals, for which it is false (see below). -/
theorem C37_partial (p p' : Profile) (u : TokenField) (cs : Caches) (hcs : cs.Ok) (junk : Bytes)
    (hj : junk.length = 128) (a : Interval) (h : a.WF) (hd : a.day ≠ -2147483648)
    (ht : -128849018880000000 < a.time ∧ a.time < 128849018880000000) (style : IntervalStyle)
    (hs : style = .iso8601 → 0 ≤ a.month ∧ 0 ≤ a.day ∧ 0 ≤ a.time) :
    ∃ text, a.format p junk style = .ok text ∧ Interval.tryFromStr p' u cs text (-1) style = .ok a := by
  have hf : HoursFit a.time := by
    rw [hoursFit_iff]
    unfold In32
    have := tdiv_or a.time 3600000000
    omega
  have hh := (hoursFit_iff _).1 hf
  have ok : IvOk a.month a.day a.time := by
    refine ⟨h.1, h.2.1, hd, hh, ?_⟩
    have := tdiv_or a.time 3600000000
    unfold ivHour; omega
  have hd32 := h.2.1
  have hmf : MinutesFit a.time := by
    unfold MinutesFit In32
    have := tdiv_or a.time 60000000
    omega
  have hday : a.day.natAbs ≤ 2147483647 := by unfold In32 at hd32; omega
  refine ⟨_, C52_text p a h hf hd (by omega) style junk hj, ?_⟩
  cases style with
  | postgres => exact pgIv_read u hcs h.1 hday hmf (pgText_len ok) (by decide)
  | verbose => exact verboseIv_read u hcs h.1 hday hmf (verboseText_len ok) (by decide)
  | sqlStandard => exact sqlIv_read u hcs h.1 hday hmf (sqlText_len ok)
  | iso8601 =>
    obtain ⟨h1, h2, h3⟩ := hs rfl
    exact isoIv_read u hcs h.1 h1 h2 hd32 h3 hmf (isoText_len h.1 hd32 hh) _

example : Caches.new.Ok ∧ (List.replicate 128 0).length = 128 ∧ (⟨-14, 3, -3723123456⟩ : Interval).WF ∧
    Interval.tryFromStr .debug .string Caches.new b!"-1 years -2 mons +3 days -01:02:03.123456" (-1) .postgres =
      .ok ⟨-14, 3, -3723123456⟩ ∧
    Interval.tryFromStr .debug .string Caches.new b!"@ 1 years 2 mons -3 days 1 hours 2 mins 3.123456 secs ago" (-1)
      .verbose = .ok ⟨-14, 3, -3723123456⟩ ∧
    Interval.tryFromStr .debug .string Caches.new b!"-1-2 +3 -1:02:03.123456" (-1) .sqlStandard =
      .ok ⟨-14, 3, -3723123456⟩ ∧
    Interval.tryFromStr .debug .string Caches.new b!"P1Y2M3DT1H2M3.123456S" (-1) .iso8601 =
      .ok ⟨14, 3, 3723123456⟩ := by
  refine ⟨Caches.ok_new, rfl, ?_⟩
  decide +kernel

/-- **C37 (the style does not have to be known).** The texts of the styles Postgres, verbose and ISO 8601 are
read in the same way whichever of these styles is named to the reader. -/
theorem C37_style (p : Profile) (u : TokenField) (cs : Caches) (hcs : cs.Ok) (a : Interval) (h : a.WF)
    (hd : a.day ≠ -2147483648) (ht : -128849018880000000 < a.time ∧ a.time < 128849018880000000)
    (st st' : IntervalStyle) (h1 : st ≠ .sqlStandard) (h2 : st' ≠ .sqlStandard)
    (hs : st = .iso8601 → 0 ≤ a.month ∧ 0 ≤ a.day ∧ 0 ≤ a.time) :
    Interval.tryFromStr p u cs (intervalText st a) (-1) st' = .ok a := by
  have hd32 := h.2.1
  have hh : In32 (ivHour a.time) := by
    unfold ivHour In32
    have := tdiv_or a.time 3600000000
    omega
  have ok : IvOk a.month a.day a.time := by
    refine ⟨h.1, h.2.1, hd, hh, ?_⟩
    have := tdiv_or a.time 3600000000
    unfold ivHour; omega
  have hmf : MinutesFit a.time := by
    unfold MinutesFit In32
    have := tdiv_or a.time 60000000
    omega
  have hday : a.day.natAbs ≤ 2147483647 := by unfold In32 at hd32; omega
  cases st with
  | postgres => exact pgIv_read u hcs h.1 hday hmf (pgText_len ok) h2
  | verbose => exact verboseIv_read u hcs h.1 hday hmf (verboseText_len ok) h2
  | sqlStandard => exact absurd rfl h1
  | iso8601 =>
    obtain ⟨h1, h2, h3⟩ := hs rfl
    exact isoIv_read u hcs h.1 h1 h2 hd32 h3 hmf (isoText_len h.1 hd32 hh) _

example : (⟨-14, 3, -3723123456⟩ : Interval).WF ∧ IntervalStyle.verbose ≠ .sqlStandard ∧
    IntervalStyle.postgres ≠ .sqlStandard := by decide

/-- **C37 is violated:** in the style ISO 8601 no interval with a negative part is read back, its own text is
an error. The decoder takes `c` for a sign where it should take `-`. -/
theorem C37_iso_violated (p p' : Profile) (u : TokenField) (cs : Caches) (hcs : cs.Ok) (junk : Bytes)
    (hj : junk.length = 128) (a : Interval) (h : a.WF) (hf : HoursFit a.time)
    (hneg : a.month < 0 ∨ a.day < 0 ∨ a.time < 0) (style : IntervalStyle) :
    ∃ text, a.format p junk .iso8601 = .ok text ∧
      Interval.tryFromStr p' u cs text (-1) style = .err .invalid := by
  have hh := (hoursFit_iff _).1 hf
  exact ⟨_, C52_iso p a h hf junk hj, isoIv_rejects u hcs h.1 h.2.1 hh hneg (isoText_len h.1 h.2.1 hh) style⟩

example : (⟨0, -1, 0⟩ : Interval).WF ∧ HoursFit 0 ∧ intervalText .iso8601 ⟨0, -1, 0⟩ = b!"P-1D" := by
  decide +kernel

/-- **C37 is violated:** an interval of 2^31 minutes prints, but reading its text panics in a debug build
and gives another interval in a release build. -/
theorem C37_minutes_violated (p : Profile) (u : TokenField) (cs : Caches) (hcs : cs.Ok) (junk : Bytes)
    (hj : junk.length = 128) :
    (⟨0, 0, 128849018880000000⟩ : Interval).format p junk .postgres = .ok b!"35791394:08:00" ∧
    Interval.tryFromStr .debug u cs b!"35791394:08:00" (-1) .postgres = .panic ∧
    Interval.tryFromStr .release u cs b!"35791394:08:00" (-1) .postgres = .ok ⟨0, 0, -128849018880000000⟩ := by
  have hw : (⟨0, 0, 128849018880000000⟩ : Interval).WF ∧ HoursFit 128849018880000000 ∧
      intervalText .postgres ⟨0, 0, 128849018880000000⟩ = b!"35791394:08:00" := by decide +kernel
  have hs : scan u b!"35791394:08:00" = .ok [(.time, b!"35791394:08:00")] := by cases u <;> decide +kernel
  have hdec : ∀ p, St.orElse (decodeInterval p plainLook (parseRange (-1)) .postgres [(.time, b!"35791394:08:00")])
      (noLook (decodeIsoInterval p b!"35791394:08:00")) ({}, ()) =
        (.ok (), ({ t := ({ hour := 35791394, min := 8 }, 0), fMask := DTK_TIME_M, tMask := DTK_TIME_M, ty := 21 }, ())) := by
    intro p
    cases p <;> decide +kernel
  refine ⟨?_, ?_, ?_⟩
  · rw [C52_text p _ hw.1 hw.2.1 (by decide) (by decide) .postgres junk hj, hw.2.2]
  · rw [interval_run .debug u hcs (-1) .postgres hs (hdec .debug)]; decide +kernel
  · rw [interval_run .release u hcs (-1) .postgres hs (hdec .release)]; decide +kernel

end Props
