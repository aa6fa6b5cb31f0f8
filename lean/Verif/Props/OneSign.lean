import Verif.Lemmas.OneSign
import Verif.Props.Quantities

/-!
# Property C72: one sign for all numbers of an interval

In the SQL style `-1 year 2 months 3 days` means a year, two months and three days back: a minus sign before the first number,
with no further sign in the text, holds for all numbers. `c` is the state of the thread's keyword caches, `u` the uninitialised
type of a lone sign.
-/

namespace Props
open Pg Spec

/-- **C72.** If the first number of the text has a minus sign and no other number has a sign, the SQL style gives the negative of
the whole, and the other styles negate the first number only; `ago` turns the result round. A unit that occurs twice is an error.
Missing: texts in which the first unit has kin, `-1 decade 3 years`, because there the property does not hold
(`C72_violated`). -/
theorem C72_partial (p : Profile) (u : TokenField) (c : Caches) (hc : c.Ok) (style : IntervalStyle)
    (qs : List Quantity) (hok : ∀ q ∈ qs, q.Ok) (hn : qs.length ≤ 12) (hmod : Moderate qs)
    (ago : Option Bytes) (ha : ∀ w ∈ ago, AgoWord w) (hl : (quantitiesText qs ago).length ≤ 128)
    (hs : LoneSign qs) (hf : FirstAlone qs) :
    if (qs.map Quantity.unit).Nodup then
      Interval.tryFromStr p u c (quantitiesText qs ago) (-1) style =
        if style = .sqlStandard then
          .ok ⟨agoSign ago * -size IvUnit.months qs, agoSign ago * -size IvUnit.days qs, agoSign ago * -size IvUnit.micros qs⟩
        else
          .ok ⟨agoSign ago * total IvUnit.months qs, agoSign ago * total IvUnit.days qs, agoSign ago * total IvUnit.micros qs⟩
    else (Interval.tryFromStr p u c (quantitiesText qs ago) (-1) style).IsErr := by
  have hne : qs ≠ [] := by rintro rfl; exact hs
  by_cases hst : style = .sqlStandard
  swap
  · simp only [if_neg hst]
    refine C60_quantities p u c hc style qs hok hne hn hmod ago ha hl ?_
    cases qs with
    | nil => exact id
    | cons q r => exact fun h => hst h.1
  subst hst
  have hsc := scans_quantities (u := u) hok ha
  have hlen : (agoF ago).length ≤ 1 := by cases ago <;> simp [agoF, agoFields]
  have hscan : scan u (quantitiesText qs ago) = .ok (qsFields qs (agoF ago)) := by
    refine Scans.run hsc ?_ hl (by rw [qsFields_length]; omega)
    intro e
    have := congrArg List.length e
    rw [qsFields_length, List.length_nil] at this
    have := List.length_pos_iff.2 hne
    omega
  obtain ⟨s0, r0, a0⟩ := ago_runs (p := p) (range := parseRange (-1)) ago.isSome
  obtain ⟨h1, h2⟩ := qs_runs_exact r0 a0 qs hok hmod
  split
  next hnd =>
    obtain ⟨s, hr, ⟨hq, hmask, hb, hd⟩, hall⟩ := h1 hnd
    have hmod' := hmod
    obtain ⟨b1, b2, b3, b4, -⟩ := hmod'
    have hcar := carryFsec_any (p := p) hq.s' b4
    rw [hall] at hcar
    obtain ⟨⟨g1, g2, g3⟩, ⟨g4, g5⟩, ⟨g6, g7, g8⟩, g9, g10, g11, g12⟩ := forced hs hf rfl
    have key := interval_signed (style := .sqlStandard) hc hscan (by rw [hmask]; exact maskOf_ne hne) hb hd hr
      (by rw [hall]; exact hcar) (sqlSign_force hok hs ago _) g1 (by unfold Abs2; omega) g4 (by unfold Abs2; omega) g6
      (by unfold Abs2; omega) g9 (by omega) (by omega)
    have hmic := size_add wholeMinutes subMinute IvUnit.micros 60000000 (by intro u; cases u <;> decide) qs
    rw [key, Interval.adjustByTypmod, if_neg (by omega), if_pos rfl, hmic]
    unfold agoSign
    congr 3
    ring
  next hnd =>
    refine interval_refused hc hscan ?_ (h2 hnd)
    cases qs with
    | nil => exact absurd rfl hne
    | cons q r =>
      have hd := (hok q (by simp)).1
      unfold quantitiesText
      rw [List.map_cons, List.cons_append, spaced_cons]
      exact quantity_head hd.1 (DigitsOf.ne hd (by omega)) _

/-- An example text. -/
def sampleLone : List Quantity :=
  [⟨some true, b!"1", true, .year, b!"year"⟩, ⟨none, b!"2", true, .month, b!"Months"⟩, ⟨none, b!"3", true, .week, b!"weeks"⟩,
   ⟨none, b!"4", true, .day, b!"d"⟩, ⟨none, b!"1500", false, .millisecond, b!"ms"⟩]

example : quantitiesText sampleLone none = b!"-1 year 2 Months 3 weeks 4 d 1500ms" ∧ LoneSign sampleLone ∧ FirstAlone sampleLone ∧
    (sampleLone.map Quantity.unit).Nodup ∧
    Interval.tryFromStr .debug .date Caches.new (quantitiesText sampleLone none) (-1) .sqlStandard = .ok ⟨-14, -25, -1500000⟩ ∧
    Interval.tryFromStr .debug .date Caches.new (quantitiesText sampleLone none) (-1) .postgres = .ok ⟨-10, 25, 1500000⟩ ∧
    Interval.tryFromStr .debug .date Caches.new (quantitiesText sampleLone (some b!"ago")) (-1) .sqlStandard =
      .ok ⟨14, 25, 1500000⟩ := by decide +kernel
example : (∀ q ∈ sampleLone, q.Ok) ∧ Moderate sampleLone := by
  refine ⟨?_, ?_⟩
  · intro q hq
    simp only [sampleLone, List.mem_cons, List.not_mem_nil, or_false] at hq
    unfold Quantity.Ok SameButCase
    rcases hq with rfl | rfl | rfl | rfl | rfl
    · exact ⟨by decide, "year", by decide +kernel, by decide +kernel⟩
    · exact ⟨by decide, "months", by decide +kernel, by decide +kernel⟩
    · exact ⟨by decide, "weeks", by decide +kernel, by decide +kernel⟩
    · exact ⟨by decide, "d", by decide +kernel, by decide +kernel⟩
    · exact ⟨by decide, "ms", by decide +kernel, by decide +kernel⟩
  · unfold Moderate; decide +kernel

/-- The property does not hold if the first unit has kin in the text: a decade and three years back are read as seven years
back, a week and ten days back as three days back. -/
theorem C72_violated :
    Interval.tryFromStr .release .number Caches.new b!"-1 decade 3 years" (-1) .sqlStandard = .ok ⟨-84, 0, 0⟩ ∧
    Interval.tryFromStr .release .number Caches.new b!"-1 week 10 days" (-1) .sqlStandard = .ok ⟨0, -3, 0⟩ := by decide +kernel

end Props
