import Verif.Lemmas.FormatTypes
import Verif.Lemmas.IsoForms

/-! # Order of texts -/

namespace Pg
open Spec

theorem lt_of_prefix {a b : Bytes} (hl : a.length = b.length) (h : a < b) (s t : Bytes) : a ++ s < b ++ t := by
  induction a generalizing b with
  | nil =>
    cases b with
    | nil => exact absurd h (List.lt_irrefl _)
    | cons y b => cases hl
  | cons x a ih =>
    cases b with
    | nil => cases hl
    | cons y b =>
      rw [List.cons_append, List.cons_append, List.cons_lt_cons_iff]
      rcases List.cons_lt_cons_iff.1 h with h | ⟨rfl, h'⟩
      · exact Or.inl h
      · exact Or.inr ⟨rfl, ih (by simpa using hl) h'⟩

theorem value_cons (x : Nat) {l : Bytes} (h : Digits l) : value (x :: l) = (x - 48) * 10 ^ l.length + value l := by
  have := value_join [x] h
  rw [List.singleton_append] at this
  rw [this]
  simp [value]

/-- Digits of the same length sort like their values. -/
theorem digits_lt {a b : Bytes} (ha : Digits a) (hb : Digits b) (hl : a.length = b.length) (h : value a < value b) : a < b := by
  induction a generalizing b with
  | nil =>
    cases b with
    | nil => exact absurd h (by decide)
    | cons y b => cases hl
  | cons x a ih =>
    cases b with
    | nil => cases hl
    | cons y b =>
      have ha' : Digits a := fun d hd => ha d (List.mem_cons_of_mem _ hd)
      have hb' : Digits b := fun d hd => hb d (List.mem_cons_of_mem _ hd)
      have hx := ha x (by simp)
      have hy := hb y (by simp)
      have hl' : a.length = b.length := by simpa using hl
      rw [value_cons x ha', value_cons y hb', hl'] at h
      have v1 := value_lt ha'
      have v2 := value_lt hb'
      rw [hl'] at v1
      rw [List.cons_lt_cons_iff]
      rcases Nat.lt_trichotomy x y with hxy | rfl | hxy
      · exact Or.inl hxy
      · exact Or.inr ⟨rfl, ih ha' hb' hl' (by omega)⟩
      · exfalso
        obtain ⟨k, rfl⟩ : ∃ k, x = y + 1 + k := ⟨x - y - 1, by omega⟩
        have : y + 1 + k - 48 = (y - 48) + 1 + k := by omega
        rw [this, Nat.add_mul, Nat.add_mul] at h
        generalize 10 ^ b.length = P at *
        have : 0 ≤ k * P := Nat.zero_le _
        omega

theorem padText_len {w n : Nat} (hw : 1 ≤ w) (h : n < 10 ^ w) : (padText w n).length = w :=
  (padText_padded w hw n).2.2.1 (by exact_mod_cast h)

theorem padText_lt {w m n : Nat} (hw : 1 ≤ w) (hm : m < 10 ^ w) (hn : n < 10 ^ w) (h : m < n) : padText w m < padText w n :=
  digits_lt (padText_digits _ _) (padText_digits _ _) (by rw [padText_len hw hm, padText_len hw hn])
    (by rw [padText_value, padText_value]; exact h)

theorem stripZeros_cons (x : Nat) (l : Bytes) :
    stripZeros (x :: l) = if stripZeros l = [] then (if x = 48 then [] else [x]) else x :: stripZeros l := by
  unfold stripZeros
  rw [List.reverse_cons, List.dropWhile_append]
  by_cases h : List.dropWhile (fun x => x == 48) l.reverse = []
  · rw [h]
    by_cases hx : x = 48 <;> simp [hx]
  · rw [if_neg (by simpa using h), if_neg (by simpa using h), List.reverse_append]
    rfl

theorem nil_lt {l : Bytes} (h : l ≠ []) : ([] : Bytes) < l := by
  cases l with
  | nil => exact absurd rfl h
  | cons x l => exact List.Lex.nil

/-- Zeros at the end do not matter for the order. -/
theorem strip_lt {a b : Bytes} (hb : Digits b) (ha : Digits a) (hl : a.length = b.length) (h : a < b) : stripZeros a < stripZeros b := by
  induction a generalizing b with
  | nil =>
    cases b with
    | nil => exact absurd h (List.lt_irrefl _)
    | cons y b => cases hl
  | cons x a ih =>
    cases b with
    | nil => cases hl
    | cons y b =>
      have ha' : Digits a := fun d hd => ha d (List.mem_cons_of_mem _ hd)
      have hb' : Digits b := fun d hd => hb d (List.mem_cons_of_mem _ hd)
      have hx := ha x (by simp)
      have hl' : a.length = b.length := by simpa using hl
      rw [stripZeros_cons, stripZeros_cons]
      rcases List.cons_lt_cons_iff.1 h with h | ⟨rfl, h'⟩
      · rw [if_neg (show ¬ y = 48 by omega)]
        have : ∀ l l' : Bytes, x :: l < y :: l' := fun l l' => List.cons_lt_cons_iff.2 (Or.inl h)
        split
        · split
          · exact nil_lt (by split <;> simp)
          · split <;> exact this _ _
        · split <;> exact this _ _
      · have := ih hb' ha' hl' h'
        have hne : stripZeros b ≠ [] := by
          intro e
          rw [e] at this
          exact absurd this (List.not_lt_nil _)
        rw [if_neg hne]
        split
        · split
          · exact nil_lt (by simp)
          · exact List.cons_lt_cons_iff.2 (Or.inr ⟨rfl, nil_lt hne⟩)
        · exact List.cons_lt_cons_iff.2 (Or.inr ⟨rfl, this⟩)

theorem fracText_lt {m n : Nat} (hm : m < 10 ^ 6) (hn : n < 10 ^ 6) (h : m < n) : fracText m < fracText n := by
  unfold fracText
  rw [if_neg (show ¬ n = 0 by omega)]
  split
  · exact nil_lt (by simp)
  · exact List.cons_lt_cons_iff.2 (Or.inr ⟨rfl, strip_lt (padText_digits _ _) (padText_digits _ _)
      (by rw [padText_len (by decide) hm, padText_len (by decide) hn]) (padText_lt (by decide) hm hn h)⟩)

theorem two_lt {v w : Int} (h0 : 0 ≤ v) (hw : w ≤ 99) (h : v < w) : two v < two w :=
  padText_lt (by decide) (by omega) (by omega) (by omega)

/-- A two-digit field decides, or the rest does. -/
theorem field_lt {v w : Int} {s t : Bytes} (hv : 0 ≤ v ∧ v ≤ 99) (hw : 0 ≤ w ∧ w ≤ 99) (x : Bytes) (h : v < w ∨ (v = w ∧ s < t)) :
    two v ++ (x ++ s) < two w ++ (x ++ t) := by
  rcases h with h | ⟨rfl, h⟩
  · exact lt_of_prefix (by rw [two_len hv, two_len hw]) (two_lt hv.1 hw.2 h) _ _
  · exact List.append_left_lt (List.append_left_lt h)

theorem clockText_lt {t t' : Clock} (h : t.Real ∨ t = ⟨24, 0, 0, 0⟩) (h' : t'.Real ∨ t' = ⟨24, 0, 0, 0⟩) (hlt : t.micros < t'.micros) :
    clockText t < clockText t' := by
  have b : ∀ t : Clock, t.Real ∨ t = ⟨24, 0, 0, 0⟩ → 0 ≤ t.h ∧ t.h ≤ 24 ∧ 0 ≤ t.mi ∧ t.mi ≤ 59 ∧ 0 ≤ t.s ∧ t.s ≤ 59 ∧
      0 ≤ t.us ∧ t.us ≤ 999999 := by
    rintro t (h | rfl)
    · unfold Clock.Real at h; omega
    · decide
  have b1 := b t h
  have b2 := b t' h'
  unfold Clock.micros at hlt
  unfold clockText
  refine field_lt (by omega) (by omega) _ ?_
  by_cases h1 : t.h < t'.h
  · exact Or.inl h1
  · refine Or.inr ⟨by omega, field_lt (by omega) (by omega) _ ?_⟩
    by_cases h2 : t.mi < t'.mi
    · exact Or.inl h2
    · refine Or.inr ⟨by omega, ?_⟩
      unfold secText
      rw [if_pos rfl, if_pos rfl]
      by_cases h3 : t.s < t'.s
      · exact lt_of_prefix (by rw [padText_len (by decide) (by omega), padText_len (by decide) (by omega)])
          (padText_lt (by decide) (by omega) (by omega) (by omega)) _ _
      · rw [show t'.s = t.s by omega]
        exact List.append_left_lt (fracText_lt (by omega) (by omega) (by omega))

/-- A day before another one, or the same day with a smaller rest. -/
theorem dayText_lt {c c' : YMD} (hc : c.Real) (hc' : c'.Real) (hy : 1 ≤ c.y ∧ c.y ≤ 9999) (hy' : 1 ≤ c'.y ∧ c'.y ≤ 9999) (o : DateOrder)
    {s t : Bytes} (h : c.lt c' ∨ (c = c' ∧ s < t)) : dayText .iso o c ++ s < dayText .iso o c' ++ t := by
  have b1 := real_bounds hc
  have b2 := real_bounds hc'
  rcases h with h | ⟨rfl, h⟩
  · have key : dayText .iso o c < dayText .iso o c' := by
      unfold dayText
      simp only
      have y1 : (yearText c.y).length = 4 := by unfold yearText; rw [if_pos (by omega)]; exact padText_len (by decide) (by omega)
      have y2 : (yearText c'.y).length = 4 := by unfold yearText; rw [if_pos (by omega)]; exact padText_len (by decide) (by omega)
      unfold YMD.lt at h
      rcases h with h | ⟨h, h'⟩
      · refine lt_of_prefix (by rw [y1, y2]) ?_ _ _
        unfold yearText
        rw [if_pos (by omega), if_pos (by omega)]
        exact padText_lt (by decide) (by omega) (by omega) (by omega)
      · rw [h]
        refine List.append_left_lt (List.append_left_lt (field_lt (by omega) (by omega) _ ?_))
        rcases h' with h' | ⟨h1, h'⟩
        · exact Or.inl h'
        · exact Or.inr ⟨h1, two_lt (by omega) (by omega) h'⟩
    refine lt_of_prefix ?_ key _ _
    unfold dayText yearText
    simp only [List.length_append]
    rw [if_pos (by omega), if_pos (by omega), padText_len (by decide) (by omega), padText_len (by decide) (by omega),
      two_len (v := c.m) (by omega), two_len (v := c.d) (by omega), two_len (v := c'.m) (by omega), two_len (v := c'.d) (by omega)]
  · exact List.append_left_lt h

end Pg
