import Verif.Lemmas.FractionsText
import Verif.Props.Quantities

/-!
# Property C70: intervals written as quantities with fractions

`1.5 days`, `-0.25h`, `2.7 weeks 0.5 mons ago`. `c` is the state of the thread's keyword caches, `u` the uninitialised
type of a lone sign.
-/

namespace Props
open Pg Spec

/-- **C70.** Numbers with units, some with a fraction of one to seven digits, no two in each other's way, are read as the
sum of what each quantity is (`QuantityIs`): fractions of minutes, hours and days are exact, those of weeks and of months
of 30 days give whole days and the exact rest in microseconds, those of years give whole months, and those of seconds,
milliseconds and microseconds are rounded to microseconds; `ago` negates everything. Otherwise (a unit twice, seconds with
a fraction besides milliseconds or microseconds, a fraction of more than seven digits) the text is an error. -/
theorem C70_fractions_partial (p : Profile) (u : TokenField) (c : Caches) (hc : c.Ok) (style : IntervalStyle)
    (xs : List FracQuantity) (hok : ∀ x ∈ xs, x.Ok) (hne : xs ≠ []) (hn : xs.length ≤ 12) (hmod : Modest xs)
    (ago : Option Bytes) (ha : ∀ w ∈ ago, AgoWord w) (hl : (fractionsText xs ago).length ≤ 128)
    (hs : ¬ OneSignForAll style (xs.map FracQuantity.whole)) :
    if FractionsFit xs then
      ∃ ys, List.Forall₂ QuantityIs xs ys ∧ Interval.tryFromStr p u c (fractionsText xs ago) (-1) style =
        .ok ⟨agoSign ago * (sumParts ys).1, agoSign ago * (sumParts ys).2.1, agoSign ago * (sumParts ys).2.2⟩
    else (Interval.tryFromStr p u c (fractionsText xs ago) (-1) style).IsErr := by
  have hsc := scans_fractions (u := u) hok ha
  have hlen : (agoF ago).length ≤ 1 := by cases ago <;> simp [agoF, agoFields]
  have hscan : scan u (fractionsText xs ago) = .ok (fsFields xs (agoF ago)) := by
    refine Scans.run hsc ?_ hl (by rw [fsFields_length]; omega)
    intro e
    have := congrArg List.length e
    rw [fsFields_length, List.length_nil] at this
    have := List.length_pos_iff.2 hne
    omega
  obtain ⟨s0, r0, a0⟩ := ago_runs (p := p) (range := parseRange (-1)) ago.isSome
  obtain ⟨h1, h2⟩ := fs_runs r0 a0 xs hok hmod hn
  split
  next hnd =>
    obtain ⟨s, ys, hr, hall, ⟨W, S, hinv, hWS⟩, hmask, hb, hd⟩ := h1 hnd
    refine ⟨ys, hall, ?_⟩
    obtain ⟨b1, b2, b3, b4, -⟩ := hmod
    have := interval_totals (style := style) (typmod := -1) hc hscan hinv (by omega) (by omega) (by omega) (by omega)
      (by rw [hmask]; exact fqMasks_ne hne) hb hd hr (by
        intro t _
        cases xs with
        | nil => exact absurd rfl hne
        | cons x r =>
          refine sqlSign_keepF (hok x (by simp)) ?_ _ t
          intro hst q' r' e hm
          rw [List.map_cons] at e
          cases e
          apply Classical.byContradiction
          intro hcon
          refine hs ⟨hst, hm, ?_⟩
          intro q' hq'
          apply Classical.byContradiction
          intro h
          exact hcon ⟨q', hq', h⟩)
    rw [this, Interval.adjustByTypmod, if_neg (by omega), hWS]
    rfl
  next hnd =>
    refine interval_refused hc hscan ?_ (h2 hnd)
    cases xs with
    | nil => exact absurd rfl hne
    | cons x r =>
      unfold fractionsText
      rw [List.map_cons, List.cons_append, spaced_cons]
      exact fraction_head (hok x (by simp)) _

/-- An example text: half a month less 1.7 weeks and a quarter of a year. -/
def sampleFractions : List FracQuantity :=
  [⟨⟨none, b!"0", true, .month, b!"mons"⟩, b!"51"⟩, ⟨⟨some true, b!"1", false, .week, b!"WEEKS"⟩, b!"7"⟩,
   ⟨⟨none, b!"2", true, .year, b!"years"⟩, b!"2599999"⟩, ⟨⟨none, b!"90", true, .minute, b!"min"⟩, []⟩]

example : fractionsText sampleFractions none = b!"0.51 mons -1.7WEEKS 2.2599999 years 90 min" ∧
    FractionsFit sampleFractions ∧
    Interval.tryFromStr .debug .date Caches.new (fractionsText sampleFractions none) (-1) .postgres =
      .ok ⟨27, 15 - 11, 25920000000 - 77760000000 + 5400000000⟩ := by decide +kernel
example : (∀ x ∈ sampleFractions, x.Ok) ∧ Modest sampleFractions ∧
    ¬ OneSignForAll .sqlStandard (sampleFractions.map FracQuantity.whole) := by
  refine ⟨?_, ?_, ?_⟩
  · intro q hq
    simp only [sampleFractions, List.mem_cons, List.not_mem_nil, or_false] at hq
    unfold FracQuantity.Ok Quantity.Ok SameButCase
    rcases hq with rfl | rfl | rfl | rfl
    · exact ⟨⟨by decide, "mons", by decide +kernel, by decide +kernel⟩, by decide⟩
    · exact ⟨⟨by decide, "weeks", by decide +kernel, by decide +kernel⟩, by decide⟩
    · exact ⟨⟨by decide, "years", by decide +kernel, by decide +kernel⟩, by decide⟩
    · exact ⟨⟨by decide, "min", by decide +kernel, by decide +kernel⟩, by decide⟩
  · unfold Modest; decide +kernel
  · rintro ⟨-, h, -⟩; cases h
example : Interval.tryFromStr .debug .date Caches.new b!"1.5 seconds 3 ms" (-1) .postgres = .err .invalid ∧
    Interval.tryFromStr .debug .date Caches.new b!"1 second 3.5 ms" (-1) .postgres = .ok ⟨0, 0, 1003500⟩ ∧
    Interval.tryFromStr .debug .date Caches.new b!"0.12345678 days" (-1) .postgres = .err .overflow := by decide +kernel

/-- The months of a fraction of decades, centuries or millennia are not always the whole part of the exact number of
months: `0.7 decades`, seven years, is read as 83 months, and `0.3 centuries` as 359 months. -/
theorem C70_violated :
    Interval.tryFromStr .release .date Caches.new b!"0.7 decades" (-1) .postgres = .ok ⟨83, 0, 0⟩ ∧
    Interval.tryFromStr .release .date Caches.new b!"7 years" (-1) .postgres = .ok ⟨84, 0, 0⟩ ∧
    Interval.tryFromStr .release .date Caches.new b!"0.3 centuries" (-1) .postgres = .ok ⟨359, 0, 0⟩ ∧
    Interval.tryFromStr .release .date Caches.new b!"30 years" (-1) .postgres = .ok ⟨360, 0, 0⟩ := by
  decide +kernel

end Props
