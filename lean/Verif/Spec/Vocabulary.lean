import Verif.Spec.Twice
import Verif.Spec.Keywords

/-!
# Specification: the words that may occur in a text

The words are lists of small letters; in a text their case does not matter, and only the first ten letters count.
-/

namespace Spec

/-- Words in dates and timestamps: names of months and weekdays, `am` and `pm`, `ad` and `bc`, the words `at` and `on`
without meaning, labels of numbers, the `t` before a time, and words for special values. -/
def dateWords : List (List Nat) :=
  (monthWords ++ shortMonthWords ++ weekdayWords ++ shortWeekdayWords).map (·.1) ++
    [b!"fe", b!"am", b!"pm", b!"ad", b!"bc", b!"at", b!"on", b!"y", b!"m", b!"d", b!"h", b!"mm", b!"s", b!"j", b!"jd", b!"julian",
     b!"dow", b!"doy", b!"isodow", b!"t", b!"allballs", b!"epoch", b!"infinity", b!"invalid", b!"undefined"]

/-- Words in times: the same without months, weekdays and special values other than midnight. -/
def timeWords : List (List Nat) :=
  [b!"am", b!"pm", b!"ad", b!"bc", b!"at", b!"on", b!"y", b!"m", b!"d", b!"h", b!"mm", b!"s", b!"j", b!"jd", b!"julian", b!"dow",
   b!"doy", b!"isodow", b!"t", b!"allballs"]

/-- Words in intervals: units, and `ago`. -/
def intervalWords : List (List Nat) :=
  [b!"ago", b!"microsecon", b!"us", b!"usec", b!"usecs", b!"usecond", b!"useconds",
   b!"millisecon", b!"ms", b!"msec", b!"msecs", b!"msecond", b!"mseconds", b!"s", b!"sec", b!"secs", b!"second", b!"seconds",
   b!"m", b!"min", b!"mins", b!"minute", b!"minutes", b!"h", b!"hr", b!"hrs", b!"hour", b!"hours", b!"d", b!"day", b!"days",
   b!"w", b!"week", b!"weeks", b!"mon", b!"mons", b!"month", b!"months", b!"qtr", b!"quarter", b!"y", b!"yr", b!"yrs", b!"year",
   b!"years", b!"dec", b!"decs", b!"decade", b!"decades", b!"c", b!"cent", b!"century", b!"centuries", b!"mil", b!"mils",
   b!"millennia", b!"millennium", b!"timezone", b!"invalid", b!"undefined"]

/-- The first ten letters of `w` are one of the words. -/
def Known (l : List (List Nat)) (w : List Nat) : Prop := ∃ v ∈ l, SameButCase (w.take 10) v

/-- What may stand directly before a word: nothing, a number, or a clock time. -/
def Attached (a : List Nat) : Prop := a = [] ∨ (a ≠ [] ∧ Digits a) ∨ Mark.clock.Is a

/-- The word `x` is or ends in letters that are not a known word. -/
def UnknownWord (l : List (List Nat)) (x : List Nat) : Prop :=
  ∃ a w, x = a ++ w ∧ Attached a ∧ w ≠ [] ∧ (∀ b ∈ w, Letter b) ∧ ¬ Known l w

/-- The word `x` starts, possibly after a clock time, with a sign and a digit: a difference from universal time. -/
def ZoneOffset (x : List Nat) : Prop :=
  ∃ a s d r, x = a ++ s :: d :: r ∧ (a = [] ∨ Mark.clock.Is a) ∧ (s = 43 ∨ s = 45) ∧ Digit d

/-- The text contains a word with the property, and no word before it ends in a sign. -/
def HasWord (P : List Nat → Prop) (s : List Nat) : Prop :=
  ∃ l1 x l2, words s = l1 ++ x :: l2 ∧ P x ∧ ∀ w ∈ l1, ¬ EndsInSign w

end Spec
