import Verif.Lemmas.QuantitiesText

/-!
# Property C60: intervals written as quantities with units

`3 days -2 hours`, `5h 30m`, `1 week ago`. `c` is the state of the thread's keyword caches, `u` the uninitialised type
of a lone sign.
-/

namespace Props
open Pg Spec

/-- The sign of the whole text: `ago` turns it round. -/
def agoSign (ago : Option Bytes) : Int := if ago.isSome then -1 else 1

/-- In the SQL style a minus sign before the first number, with no further sign in the text, holds for all numbers;
this is the case left out here. -/
def OneSignForAll (style : IntervalStyle) : List Quantity → Prop
  | [] => False
  | q :: r => style = .sqlStandard ∧ q.sign = some true ∧ ∀ q' ∈ r, q'.sign = none

/-- Reading quantities with any type modifier. -/
theorem quantities_typmod (p : Profile) (u : TokenField) (c : Caches) (hc : c.Ok) (style : IntervalStyle)
    (qs : List Quantity) (hok : ∀ q ∈ qs, q.Ok) (hne : qs ≠ []) (hn : qs.length ≤ 12) (hmod : Moderate qs)
    (ago : Option Bytes) (ha : ∀ w ∈ ago, AgoWord w) (hl : (quantitiesText qs ago).length ≤ 128)
    (hs : ¬ OneSignForAll style qs) (typmod : Int) :
    if (qs.map Quantity.unit).Nodup then
      Interval.tryFromStr p u c (quantitiesText qs ago) typmod style =
        Interval.adjustByTypmod p ⟨agoSign ago * total IvUnit.months qs, agoSign ago * total IvUnit.days qs,
          agoSign ago * total IvUnit.micros qs⟩ typmod
    else (Interval.tryFromStr p u c (quantitiesText qs ago) typmod style).IsErr := by
  have hsc := scans_quantities (u := u) hok ha
  have hlen : (agoF ago).length ≤ 1 := by cases ago <;> simp [agoF, agoFields]
  have hscan : scan u (quantitiesText qs ago) = .ok (qsFields qs (agoF ago)) := by
    refine Scans.run hsc ?_ hl (by rw [qsFields_length]; omega)
    intro e
    have := congrArg List.length e
    rw [qsFields_length, List.length_nil] at this
    have := List.length_pos_iff.2 hne
    omega
  obtain ⟨s0, r0, a0⟩ := ago_runs (p := p) (range := parseRange typmod) ago.isSome
  obtain ⟨h1, h2⟩ := qs_runs r0 a0 qs hok hmod
  split
  next hnd =>
    obtain ⟨s, hr, hq⟩ := h1 hnd
    rw [interval_fields hc hscan hne hmod hr hq, total_micros]
    · rfl
    · intro t _
      cases qs with
      | nil => exact absurd rfl hne
      | cons q r =>
        have hd := (hok q (by simp)).1
        refine sqlSign_keep hd.1 (DigitsOf.ne hd (by omega)) ?_ _ t
        intro hst q' r' e hm
        cases e
        apply Classical.byContradiction
        intro hcon
        refine hs ⟨hst, hm, ?_⟩
        intro q' hq'
        apply Classical.byContradiction
        intro h
        exact hcon ⟨q', hq', h⟩
  next hnd =>
    refine interval_refused hc hscan ?_ (h2 hnd)
    cases qs with
    | nil => exact absurd rfl hne
    | cons q r =>
      have hd := (hok q (by simp)).1
      unfold quantitiesText
      rw [List.map_cons, List.cons_append, spaced_cons]
      exact quantity_head hd.1 (DigitsOf.ne hd (by omega)) _

/-- **C60.** A text of numbers with units, each unit once, is read as the interval whose months, days and microseconds
are the sums of the numbers times the months, days and microseconds of their units; `ago` negates all three. A unit
that occurs twice is an error. -/
theorem C60_quantities (p : Profile) (u : TokenField) (c : Caches) (hc : c.Ok) (style : IntervalStyle)
    (qs : List Quantity) (hok : ∀ q ∈ qs, q.Ok) (hne : qs ≠ []) (hn : qs.length ≤ 12) (hmod : Moderate qs)
    (ago : Option Bytes) (ha : ∀ w ∈ ago, AgoWord w) (hl : (quantitiesText qs ago).length ≤ 128)
    (hs : ¬ OneSignForAll style qs) :
    if (qs.map Quantity.unit).Nodup then
      Interval.tryFromStr p u c (quantitiesText qs ago) (-1) style =
        .ok ⟨agoSign ago * total IvUnit.months qs, agoSign ago * total IvUnit.days qs,
          agoSign ago * total IvUnit.micros qs⟩
    else (Interval.tryFromStr p u c (quantitiesText qs ago) (-1) style).IsErr := by
  have h := quantities_typmod p u c hc style qs hok hne hn hmod ago ha hl hs (-1)
  split
  next hnd =>
    rw [if_pos hnd, Interval.adjustByTypmod, if_neg (by omega)] at h
    exact h
  next hnd =>
    rw [if_neg hnd] at h
    exact h

/-- An example text. -/
def sampleQuantities : List Quantity :=
  [⟨none, b!"3", true, .week, b!"Weeks"⟩, ⟨some true, b!"90", false, .minute, b!"min"⟩,
   ⟨some false, b!"1500", true, .millisecond, b!"MILLISECONDS"⟩, ⟨none, b!"2", false, .decade, b!"decs"⟩]

example : quantitiesText sampleQuantities (some b!"AGO") = b!"3 Weeks -90min +1500 MILLISECONDS 2decs AGO" ∧
    (sampleQuantities.map Quantity.unit).Nodup ∧ total IvUnit.months sampleQuantities = 240 ∧
    total IvUnit.days sampleQuantities = 21 ∧ total IvUnit.micros sampleQuantities = -5398500000 ∧
    Interval.tryFromStr .debug .date Caches.new (quantitiesText sampleQuantities (some b!"AGO")) (-1) .postgres =
      .ok ⟨-240, -21, 5398500000⟩ := by decide +kernel
example : (∀ q ∈ sampleQuantities, q.Ok) ∧ Moderate sampleQuantities ∧ AgoWord b!"AGO" ∧
    ¬ OneSignForAll .sqlStandard sampleQuantities := by
  refine ⟨?_, ?_, ?_, ?_⟩
  · intro q hq
    simp only [sampleQuantities, List.mem_cons, List.not_mem_nil, or_false] at hq
    unfold Quantity.Ok SameButCase
    rcases hq with rfl | rfl | rfl | rfl
    · exact ⟨by decide, "weeks", by decide +kernel, by decide +kernel⟩
    · exact ⟨by decide, "min", by decide +kernel, by decide +kernel⟩
    · exact ⟨by decide, "milliseconds", by decide +kernel, by decide +kernel⟩
    · exact ⟨by decide, "decs", by decide +kernel, by decide +kernel⟩
  · unfold Moderate; decide +kernel
  · unfold AgoWord SameButCase; decide +kernel
  · rintro ⟨-, h, -⟩; cases h
example : (Interval.tryFromStr .debug .date Caches.new b!"1 day 2 hours 3 days" (-1) .postgres) = .err .invalid := by
  decide +kernel

end Props
