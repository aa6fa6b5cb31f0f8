import Verif.Lemmas.DateInput
import Verif.Lemmas.FormatTypes

/-! # Printed days as numeric dates -/

namespace Pg
open Spec

theorem yearText_ne (y : Int) : yearText y ≠ [] := by
  unfold yearText padText
  have := natText_ne (if 0 < y then y else 1 - y).natAbs
  simp [this]

theorem yearText_len4 (y : Int) : 4 ≤ (yearText y).length := by
  unfold yearText padText
  simp
  omega

theorem yearText_value (y : Int) : (value (yearText y) : Int) = if 0 < y then y else 1 - y := by
  unfold yearText padText
  rw [value_replicate, natText_value]
  split <;> omega

theorem bcMark_era (y : Int) : eraText y = bcMark (decide (y ≤ 0)) := by
  unfold eraText bcMark
  by_cases h : y ≤ 0 <;> simp [h]

theorem inputYear_yearText (y : Int) : inputYear (yearText y) (decide (y ≤ 0)) = some y := by
  have hv := yearText_value y
  have hl := yearText_len4 y
  unfold inputYear
  by_cases h : y ≤ 0
  · rw [if_neg (by omega)] at hv
    rw [if_pos (by simpa using h), if_neg (by omega)]
    congr 1; omega
  · rw [if_pos (by omega)] at hv
    rw [if_neg (by simpa using h), if_neg (by omega), if_neg (by omega)]
    congr 1

/-- The separator of a printed day. -/
def sepOf : DateStyle → Nat
  | .iso | .xsd => 45
  | .sql => 47
  | .german | .postgres => 46

/-- The three numbers of a printed day. -/
def partsOf (st : DateStyle) (o : DateOrder) (c : YMD) : Bytes × Bytes × Bytes :=
  match st, o with
  | .iso, _ | .xsd, _ => (yearText c.y, two c.m, two c.d)
  | .sql, .dmy => (two c.d, two c.m, yearText c.y)
  | .sql, _ => (two c.m, two c.d, yearText c.y)
  | .german, _ => (two c.d, two c.m, yearText c.y)
  | .postgres, .dmy => (two c.d, two c.m, yearText c.y)
  | .postgres, _ => (two c.m, two c.d, yearText c.y)

theorem sepOf_sep (st : DateStyle) : isSep (sepOf st) := by
  cases st <;> simp [sepOf, isSep]

theorem dayText_parts (st : DateStyle) (o : DateOrder) (c : YMD) (h : ¬ (st = .postgres ∧ o = .dmy)) :
    dayText st o c = numericDate (sepOf st) (partsOf st o c).1 (partsOf st o c).2.1 (partsOf st o c).2.2 := by
  cases st <;> cases o <;> first
    | exact absurd ⟨rfl, rfl⟩ h
    | simp [dayText, partsOf, sepOf, numericDate]

theorem partsOf_all {P : Bytes → Prop} (st : DateStyle) (o : DateOrder) (c : YMD) (h1 : P (yearText c.y))
    (h2 : P (two c.m)) (h3 : P (two c.d)) :
    P (partsOf st o c).1 ∧ P (partsOf st o c).2.1 ∧ P (partsOf st o c).2.2 := by
  cases st <;> cases o <;> exact ⟨by assumption, by assumption, by assumption⟩

/-- The second number has two digits. -/
theorem partsOf_second (st : DateStyle) (o : DateOrder) {c : YMD} (h : c.Real) :
    (partsOf st o c).2.1.length = 2 := by
  have hb := real_bounds h
  have h1 := two_len (v := c.m) (by omega)
  have h2 := two_len (v := c.d) (by omega)
  cases st <;> cases o <;> assumption

theorem inputDay_iso (o : DateOrder) {c : YMD} (h : c.Real) :
    inputDay o (yearText c.y) (two c.m) (two c.d) (decide (c.y ≤ 0)) = some c := by
  have hb := real_bounds h
  have h4 := yearText_len4 c.y
  unfold inputDay assign3 namedDay
  simp only [show 3 ≤ (yearText c.y).length by omega, decide_true, if_true]
  rw [inputYear_yearText, two_value (by omega), two_value (by omega)]
  exact if_pos h

theorem inputDay_last (o : DateOrder) (a b y : Int) (ha : 0 ≤ a ∧ a ≤ 99) (hb : 0 ≤ b ∧ b ≤ 99) (bc : Bool) :
    inputDay o (two a) (two b) (yearText y) bc =
      match o with
      | .ymd => namedDay (two a) b (value (yearText y)) bc
      | .dmy => namedDay (yearText y) b a bc
      | .mdy => namedDay (yearText y) a b bc := by
  have h2 := two_len ha
  unfold inputDay assign3
  simp only [h2, show ¬ (3 ≤ 2) by omega, decide_false, Bool.false_eq_true, if_false]
  have va := two_value ha.1
  have vb := two_value hb.1
  cases o
  · simp only [vb]
  · simp only [va, vb]
  · simp only [va, vb]

theorem namedDay_year {c : YMD} (h : c.Real) : namedDay (yearText c.y) c.m c.d (decide (c.y ≤ 0)) = some c := by
  unfold namedDay
  rw [inputYear_yearText]
  exact if_pos h

/-- The styles and orders in which a day is printed in the order in which it is read. -/
def readsBack (st : DateStyle) (o : DateOrder) : Bool :=
  match st, o with
  | .iso, _ | .xsd, _ => true
  | .sql, .dmy | .sql, .mdy => true
  | .german, .dmy => true
  | .postgres, .mdy => true
  | _, _ => false

theorem inputDay_parts {st : DateStyle} {o : DateOrder} (hro : readsBack st o = true) {c : YMD} (h : c.Real) :
    inputDay o (partsOf st o c).1 (partsOf st o c).2.1 (partsOf st o c).2.2 (decide (c.y ≤ 0)) = some c := by
  have hb := real_bounds h
  have e := namedDay_year h
  have iso : ∀ o, inputDay o (yearText c.y) (two c.m) (two c.d) (decide (c.y ≤ 0)) = some c :=
    fun o => inputDay_iso o h
  have dmy : inputDay .dmy (two c.d) (two c.m) (yearText c.y) (decide (c.y ≤ 0)) = some c := by
    rw [inputDay_last _ _ _ _ (by omega) (by omega)]; exact e
  have mdy : inputDay .mdy (two c.m) (two c.d) (yearText c.y) (decide (c.y ≤ 0)) = some c := by
    rw [inputDay_last _ _ _ _ (by omega) (by omega)]; exact e
  cases st with
  | iso => exact iso o
  | xsd => exact iso o
  | sql => cases o <;> first | exact absurd hro (by decide) | exact dmy | exact mdy
  | german => cases o <;> first | exact absurd hro (by decide) | exact dmy
  | postgres => cases o <;> first | exact absurd hro (by decide) | exact mdy

end Pg
