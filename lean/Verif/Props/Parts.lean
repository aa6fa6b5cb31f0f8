import Verif.Lemmas.PartsText
import Verif.Props.Quantities

/-!
# Property C71: intervals written with years-months, days and clock times

`1-2 3 04:05:06`, `-1-2 +3 -04:05:06.7`, `2 mons 3 days 04:05 ago`. `c` is the state of the thread's keyword caches, `u`
the uninitialised type of a lone sign.
-/

namespace Props
open Pg Spec

/-- **C71.** Quantities with units, years-months and a clock time, perhaps with a number of days in front, are read, in any
order, as the sum of what the parts are (`IvPart.Is`): years-months give 12 months for each year, the number in front of
the clock time is a number of days, every part has its own sign, and `ago` negates everything. If a unit is set twice or a
number is out of range (12 months or more beside years, 60 minutes or more and more than 60 seconds in a clock time), the
text is an error. -/
theorem C71_parts_partial (p : Profile) (u : TokenField) (c : Caches) (hc : c.Ok) (style : IntervalStyle)
    (ps : List IvPart) (hok : ∀ a ∈ ps, a.Ok) (hne : ps ≠ []) (hn : ps.length ≤ 12) (hmod : PartsModest ps)
    (hff : FractionsFirst ps) (ago : Option Bytes) (ha : ∀ w ∈ ago, AgoWord w) (hl : (partsText ps ago).length ≤ 128)
    (hs : ¬ (style = .sqlStandard ∧ LoneMinus ps)) :
    if PartsFit ps then
      ∃ ys, List.Forall₂ IvPart.Is ps ys ∧ Interval.tryFromStr p u c (partsText ps ago) (-1) style =
        .ok ⟨agoSign ago * (sumParts ys).1, agoSign ago * (sumParts ys).2.1, agoSign ago * (sumParts ys).2.2⟩
    else (Interval.tryFromStr p u c (partsText ps ago) (-1) style).IsErr := by
  have hsc := scans_parts (u := u) hok ha
  have hlen : (agoF ago).length ≤ 1 := by cases ago <;> simp [agoF, agoFields]
  have hfl := partsFields_length ps (agoF ago)
  have hscan : scan u (partsText ps ago) = .ok (partsFields ps (agoF ago)) := by
    refine Scans.run hsc ?_ hl (by omega)
    intro e
    have := List.length_pos_iff.2 hne
    rw [e, List.length_nil] at hfl
    omega
  obtain ⟨s0, r0, a0⟩ := ago_runs (p := p) (range := parseRange (-1)) ago.isSome
  obtain ⟨h1, h2⟩ := parts_runs r0 a0 ps hok hmod hff hn
  split
  next hnd =>
    obtain ⟨s, ys, hr, hall, ⟨W, S, hinv, hWS⟩, hmask, hb, hd⟩ := h1 hnd
    refine ⟨ys, hall, ?_⟩
    obtain ⟨b1, b2, b3, b4, -⟩ := hmod
    have := interval_totals (style := style) (typmod := -1) hc hscan hinv
      (by unfold sz1; omega) (by unfold sz2; omega) (by unfold sz3; omega) (by unfold sz4; omega)
      (by rw [hmask]; exact partsMask_ne hne) hb hd hr (fun t _ => (sqlSign_parts hok hne ago t).1 hs)
    rw [this, Interval.adjustByTypmod, if_neg (by omega), hWS]
    rfl
  next hnd =>
    refine interval_refused hc hscan ?_ (h2 hnd)
    cases ps with
    | nil => exact absurd rfl hne
    | cons x r =>
      unfold partsText
      rw [List.map_cons, List.cons_append, spaced_cons]
      exact part_head (hok x (by simp)) _

/-- An example text in the SQL form. -/
def sampleParts : List IvPart :=
  [.months (some true) b!"1" b!"2", .clock (some (some false, b!"3")) (some true) (.long b!"04" b!"05" b!"06" (some b!"7"))]

/-- The order is free, and quantities may be mixed in. -/
def mixedParts : List IvPart :=
  [.quantity ⟨⟨none, b!"2", true, .year, b!"years"⟩, []⟩, .quantity ⟨⟨none, b!"1", true, .week, b!"week"⟩, b!"5"⟩,
   .clock (some (none, b!"3")) none (.short b!"100" b!"59"), .months none b!"0" b!"11"]

example : partsText sampleParts none = b!"-1-2 +3 -04:05:06.7" ∧ PartsFit sampleParts ∧
    Interval.tryFromStr .debug .date Caches.new (partsText sampleParts none) (-1) .sqlStandard =
      .ok ⟨-14, 3, -14706700000⟩ := by decide +kernel
example : partsText mixedParts (some b!"Ago") = b!"2 years 1.5 week 3 100:59 0-11 Ago" ∧ PartsFit mixedParts ∧
    Interval.tryFromStr .debug .date Caches.new (partsText mixedParts (some b!"Ago")) (-1) .postgres =
      .ok ⟨-35, -13, -(43200000000 + 363540000000)⟩ := by decide +kernel
example : (∀ a ∈ sampleParts, a.Ok) ∧ PartsModest sampleParts ∧ FractionsFirst sampleParts ∧ ¬ LoneMinus sampleParts := by
  refine ⟨?_, ?_, ?_, ?_⟩
  · intro a ha
    simp only [sampleParts, List.mem_cons, List.not_mem_nil, or_false] at ha
    unfold IvPart.Ok
    rcases ha with rfl | rfl
    · decide
    · simp only [Option.mem_def, Option.some.injEq, forall_eq']
      exact ⟨by decide, by unfold ClockText.Ok; decide, rfl⟩
  · refine ⟨by decide +kernel, by decide +kernel, by decide +kernel, by decide +kernel, ?_⟩
    intro a ha
    simp only [sampleParts, List.mem_cons, List.not_mem_nil, or_false] at ha
    rcases ha with rfl | rfl <;> trivial
  · unfold FractionsFirst sampleParts; simp [IvPart.SplitsDays]
  · unfold LoneMinus sampleParts; simp [IvPart.signs]
example : (Interval.tryFromStr .debug .date Caches.new b!"1-12" (-1) .postgres,
    Interval.tryFromStr .debug .date Caches.new b!"04:60" (-1) .postgres,
    Interval.tryFromStr .debug .date Caches.new b!"1 04:05 2 days" (-1) .postgres,
    Interval.tryFromStr .debug .date Caches.new b!"1-2 3 mons" (-1) .postgres) =
    (.err .overflow, .err .invalid, .err .invalid, .err .invalid) := by decide +kernel

/-- The clock time overwrites what was read of the clock before, that is after it in the text: half a day written behind the
clock time is lost, in front of it it is not. -/
theorem C71_violated :
    Interval.tryFromStr .release .date Caches.new b!"1.5 days 04:05:06" (-1) .postgres =
      .ok ⟨0, 1, 43200000000 + 14706000000⟩ ∧
    Interval.tryFromStr .release .date Caches.new b!"04:05:06 1.5 days" (-1) .postgres = .ok ⟨0, 1, 14706000000⟩ := by
  decide +kernel

end Props
