import Verif.Spec.Quantities
import Verif.Spec.MonthNames
import Verif.Spec.Special
import Verif.Spec.Twice

/-!
# Specification: words that mean the same
-/

namespace Spec

/-- The words of a date, those that mean the same in one group, in small letters. `feb` is missing: the code does not know it. -/
def dayGroups : List (List (List Nat)) :=
  [[b!"jan", b!"january"], [b!"mar", b!"march"], [b!"apr", b!"april"], [b!"jun", b!"june"], [b!"jul", b!"july"],
   [b!"aug", b!"august"], [b!"sep", b!"sept", b!"september"], [b!"oct", b!"october"], [b!"nov", b!"november"],
   [b!"dec", b!"december"], [b!"sun", b!"sunday"], [b!"mon", b!"monday"], [b!"tue", b!"tues", b!"tuesday"],
   [b!"wed", b!"weds", b!"wednesday"], [b!"thu", b!"thur", b!"thurs", b!"thursday"], [b!"fri", b!"friday"],
   [b!"sat", b!"saturday"], [b!"j", b!"jd", b!"julian"], [b!"at", b!"on"]]

/-- Two words of a date that mean the same, in any letter case. -/
def DaySynonyms (w w' : List Nat) : Prop := ∃ g ∈ dayGroups, ∃ v ∈ g, ∃ v' ∈ g, SameButCase w v ∧ SameButCase w' v'

/-- Two spellings of the same unit of an interval, in any letter case. -/
def UnitSynonyms (w w' : List Nat) : Prop :=
  ∃ u : IvUnit, ∃ v ∈ u.spellings, ∃ v' ∈ u.spellings, SameButCase w (letters v) ∧ SameButCase w' (letters v')

/-- Digits, with or without a sign before them and a decimal point and further digits behind them. -/
def Number (n : List Nat) : Prop :=
  ∃ sg d fr, (sg = [] ∨ sg = [43] ∨ sg = [45]) ∧ d ≠ [] ∧ Digits d ∧ (fr = [] ∨ ∃ ds, fr = 46 :: ds ∧ ds ≠ [] ∧ Digits ds) ∧
    n = sg ++ (d ++ fr)

/-- The texts differ in one word, which stands alone or directly behind a number. No lone sign stands before it. -/
def WordExchanged (R : List Nat → List Nat → Prop) (s s' : List Nat) : Prop :=
  ∃ a n w w' c, (a = [] ∨ ∃ b, a.getLast? = some b ∧ White b) ∧ (∀ x ∈ words a, ¬ EndsInSign x) ∧ (n = [] ∨ Number n) ∧ R w w' ∧
    (c = [] ∨ ∃ b r, c = b :: r ∧ White b) ∧ s = a ++ (n ++ (w ++ c)) ∧ s' = a ++ (n ++ (w' ++ c))

end Spec
