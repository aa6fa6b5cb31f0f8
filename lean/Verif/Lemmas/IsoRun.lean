import Verif.Lemmas.IsoAdd
import Verif.Lemmas.QuantitiesText

/-! # Decoding ISO 8601 intervals -/

namespace Pg
open Spec F64

variable {p : Profile}

/-- The fields hold these items. -/
def IAt (t : TmF) (xs : List IsoItem) : Prop :=
  ∃ ys, List.Forall₂ IsoQuantityIs (xs.map IsoItem.quantity) ys ∧ ∃ W S : Int,
    QInv t (sumParts ys).1 (size IvUnit.months (xs.map fun x => x.quantity.whole) + 100 * xs.length) (sumParts ys).2.1
      (size IvUnit.days (xs.map fun x => x.quantity.whole) + 100 * xs.length) W (size wholeMinutes (xs.map fun x => x.quantity.whole)) S
      (size subMinute (xs.map fun x => x.quantity.whole) + 300000000000 * xs.length) ∧
    W * 60000000 + S = (sumParts ys).2.2

theorem IAt.start : IAt ({}, 0) [] := by
  refine ⟨[], .nil, 0, 0, ?_, rfl⟩
  constructor <;> simp [sumParts, size, Abs2]

theorem size_append (f : IvUnit → Int) (a b : List Quantity) : size f (a ++ b) = size f a + size f b := by simp [size]

theorem size_nonneg {f : IvUnit → Int} (hf : ∀ u, 0 ≤ f u) (a : List Quantity) : 0 ≤ size f a := by
  induction a with
  | nil => simp [size]
  | cons q qs ih =>
    rw [size_cons]
    have := mul_nonneg (show (0 : Int) ≤ value q.digits by omega) (hf q.unit)
    omega

/-- The items are not too large together. -/
def Fits (xs : List IsoItem) : Prop := Modest (xs.map IsoItem.quantity) ∧ xs.length ≤ 128

theorem Fits.init {xs ys : List IsoItem} (h : Fits (xs ++ ys)) : Fits xs := by
  obtain ⟨⟨h1, h2, h3, h4, h5⟩, hl⟩ := h
  simp only [List.map_append, size_append] at h1 h2 h3 h4
  rw [List.length_append] at hl
  have n1 := size_nonneg (fun u => (unit_nonneg u).1) ((ys.map IsoItem.quantity).map FracQuantity.whole)
  have n2 := size_nonneg (fun u => (unit_nonneg u).2.1) ((ys.map IsoItem.quantity).map FracQuantity.whole)
  have n3 := size_nonneg (fun u => (unit_nonneg u).2.2.1) ((ys.map IsoItem.quantity).map FracQuantity.whole)
  have n4 := size_nonneg (fun u => (unit_nonneg u).2.2.2) ((ys.map IsoItem.quantity).map FracQuantity.whole)
  refine ⟨⟨by omega, by omega, by omega, by omega, ?_⟩, by omega⟩
  intro x hx
  exact h5 x (by rw [List.map_append]; exact List.mem_append_left _ hx)

/-- The value of an item as it was parsed. -/
theorem item_frac {x : IsoItem} (h : x.Ok) {r : Rat} (hr : x.frac = [] ∧ r = 0 ∨ x.frac ≠ [] ∧
    |r - (x.quantity.tenMillionths : Rat) / 10000000| ≤ (value x.digits + 1) / 2 ^ 52 ∧
    ∀ j : Nat, x.quantity.tenMillionths = j * 2500000 → r = (j : Rat) / 4) :
    IsoFrac x.unit x.quantity.tenMillionths r := by
  rcases hr with ⟨h1, h2⟩ | ⟨h1, h2, h3⟩
  · refine Or.inl ⟨?_, h2⟩
    simp [FracQuantity.tenMillionths, IsoItem.quantity, h1, value]
  · obtain ⟨a, b⟩ := tenMillionths_bound (x := x.quantity) h.2.1.1 h.2.1.2.2
    by_cases h0 : x.quantity.tenMillionths = 0
    · refine Or.inl ⟨h0, ?_⟩
      have := h3 0 (by simpa using h0)
      simpa using this
    refine Or.inr ⟨by omega, b, ?_⟩
    rcases h.2.2.2 h1 with ⟨h4 | h4, h5⟩ | ⟨h4, h5⟩ | ⟨h4, h5⟩ | ⟨h4, h5⟩
    · have : (value x.digits : Rat) ≤ 10000 := by exact_mod_cast h5
      exact Or.inr (Or.inr (Or.inr (Or.inr ⟨h4, le_trans h2 (by norm_num; linarith), h3⟩)))
    · have : (value x.digits : Rat) ≤ 10000 := by exact_mod_cast h5
      exact Or.inl ⟨h4, le_trans h2 (by norm_num; linarith)⟩
    · have : (value x.digits : Rat) ≤ 3000 := by exact_mod_cast h5
      exact Or.inr (Or.inr (Or.inl ⟨h4, le_trans h2 (by norm_num; linarith)⟩))
    · have : (value x.digits : Rat) ≤ 700 := by exact_mod_cast h5
      exact Or.inr (Or.inr (Or.inr (Or.inl ⟨h4, le_trans h2 (by norm_num; linarith)⟩)))
    · have : (value x.digits : Rat) ≤ 1000000 := by exact_mod_cast h5
      exact Or.inr (Or.inl ⟨h4, le_trans h2 (by norm_num; linarith)⟩)

/-- Adding an item. -/
theorem isoAdd_item {x : IsoItem} (h : x.Ok) (hu : x.unit ∈ isoDateUnits ∨ x.unit ∈ isoTimeUnits) {r : Rat}
    (hr : IsoFrac x.unit x.quantity.tenMillionths r) {t : TmF} {xs : List IsoItem} (hi : IAt t xs) (hfit : Fits (xs ++ [x])) :
    ∃ t', isoAdd p x.unit (value x.digits) (.fin r) t = (.ok (), t') ∧ IAt t' (xs ++ [x]) := by
  obtain ⟨ys, hall, W, S, hinv, hWS⟩ := hi
  obtain ⟨⟨h1, h2, h3, h4, -⟩, hl⟩ := hfit
  rw [List.map_map] at h1 h2 h3 h4
  simp only [List.map_append, List.map_cons, List.map_nil, size_append, size_cons, Function.comp_def]
    at h1 h2 h3 h4
  simp only [IsoItem.quantity, show ∀ f, size f [] = 0 from fun _ => rfl, Int.add_zero] at h1 h2 h3 h4
  simp only [List.length_append, List.length_cons, List.length_nil] at hl
  have hv : 0 ≤ (value x.digits : Int) ∧ (value x.digits : Int) ≤ 2147483647 := ⟨by omega, by have := h.2.2.1; omega⟩
  simp only [IsoItem.quantity] at hinv
  obtain ⟨t', m, d, s, h5, h6, h7⟩ := isoAdd_any p hu hinv hr hv.1 hv.2 (by omega) (by omega) (by omega) (by omega)
  refine ⟨t', h5, ys ++ [(value x.digits * x.unit.months + m, value x.digits * x.unit.days + d,
    value x.digits * x.unit.micros + s)], ?_, W + value x.digits * wholeMinutes x.unit,
    S + (value x.digits * subMinute x.unit + s), ?_, ?_⟩
  · rw [List.map_append]
    refine List.rel_append hall (.cons ⟨m, d, s, h6, ?_⟩ .nil)
    simp [IsoItem.quantity]
  · obtain ⟨i1, i2, i3, i4, i5, i6, i7, i8⟩ := h7
    simp only [sumParts, List.map_append, List.map_cons, List.map_nil, List.sum_append, List.sum_cons, List.sum_nil,
      Int.add_zero, size_append, size_cons, show ∀ f, size f [] = 0 from fun _ => rfl, List.length_append,
      List.length_cons, List.length_nil, IsoItem.quantity] at i1 i2 i3 i4 i5 i6 i7 i8 ⊢
    unfold Abs2 at i2 i4 i6 i8
    push_cast
    constructor <;> first | (unfold Abs2; omega) | omega
  · have eu : wholeMinutes x.unit * 60000000 + subMinute x.unit = x.unit.micros := by
      cases x.unit <;> rfl
    simp only [sumParts, List.map_append, List.map_cons, List.map_nil, List.sum_append, List.sum_cons, List.sum_nil] at hWS ⊢
    rw [← eu, ← hWS]
    ring

/-- Two calls with the same fields. -/
theorem onTmIso_two {α : Type} (a b : St TmF Unit) (k : St IsoS α) :
    (onTmIso a >>= fun _ => onTmIso b >>= fun _ => k) = (onTmIso (a >>= fun _ => b) >>= fun _ => k) := by
  funext s
  simp only [St.bind_run, onTmIso, St.zoom]
  rcases ha : a s.t with ⟨r, t⟩
  cases r with
  | ok u => rcases hb : b t with ⟨r', t'⟩; cases r' <;> rfl
  | err e => rfl
  | panic => rfl

theorem isoNumber_item {u : IvUnit} {v : Int} {fv : F64} {st : IsoS} {start s : Bytes} {t' : TmF}
    (hu : u ∈ if st.datePart then isoDateUnits else isoTimeUnits) (h : isoAdd p u v fv st.t = (.ok (), t')) :
    isoNumber p start s u.isoLetter v fv st = (.ok (.field s), { st with t := t' }) := by
  obtain ⟨t, dp, hf⟩ := st
  simp only at hu h
  unfold isoNumber
  rw [St.get_bind]
  cases dp with
  | true =>
    simp only [if_true] at hu ⊢
    simp only [isoDateUnits, List.mem_cons, List.not_mem_nil, or_false] at hu
    rcases hu with rfl | rfl | rfl | rfl <;>
      simp (config := { decide := true }) only [isoDate, IvUnit.isoLetter, if_true, if_false]
    · rw [onTmIso_two]
      exact Eq.trans (St.bind_ok (onTmIso_run h)) rfl
    · rw [onTmIso_two]
      exact Eq.trans (St.bind_ok (onTmIso_run h)) rfl
    · simp only [isoAdd] at h
      cases hc : chk32 p (v * 7) with
      | ok w =>
        rw [hc] at h
        rw [St.lift_ok_bind, onTmIso_two]
        exact Eq.trans (St.bind_ok (onTmIso_run h)) rfl
      | err e => rw [hc] at h; cases h
      | panic => rw [hc] at h; cases h
    · rw [onTmIso_two]
      exact Eq.trans (St.bind_ok (onTmIso_run h)) rfl
  | false =>
    simp only [Bool.false_eq_true, if_false] at hu ⊢
    simp only [isoTimeUnits, List.mem_cons, List.not_mem_nil, or_false] at hu
    rcases hu with rfl | rfl | rfl <;>
      simp (config := { decide := true }) only [isoTime, IvUnit.isoLetter, if_true, if_false]
    · rw [onTmIso_two]
      exact Eq.trans (St.bind_ok (onTmIso_run h)) rfl
    · rw [onTmIso_two]
      exact Eq.trans (St.bind_ok (onTmIso_run h)) rfl
    · rw [onTmIso_two]
      exact Eq.trans (St.bind_ok (onTmIso_run h)) rfl

theorem number_first {x : IsoItem} (h : x.Ok) (r : Bytes) : ∃ y t, x.number ++ r = y :: t ∧ isDigit y = true := by
  obtain ⟨y, t, e, hy⟩ := digits_first h.1.1 (DigitsOf.ne h.1 (by omega))
  exact ⟨y, t ++ (if x.frac = [] then [] else 46 :: x.frac) ++ r, by unfold IsoItem.number; rw [e]; simp, hy⟩

theorem letter_stop (u : IvUnit) : isDigit u.isoLetter = false ∧ u.isoLetter ≠ 46 := by cases u <;> decide

/-- Items. -/
theorem items_go {l : List IsoItem} : ∀ {xs : List IsoItem} {st : IsoS},
    (∀ x ∈ l, x.Ok ∧ x.unit ∈ if st.datePart then isoDateUnits else isoTimeUnits) → IAt st.t xs → Fits (xs ++ l) →
    ∃ st', IsoGoes p (l.map IsoItem.text).flatten st (some st') ∧ IAt st'.t (xs ++ l) ∧ st'.datePart = st.datePart := by
  induction l with
  | nil =>
    intro xs st _ hi _
    exact ⟨st, IsoGoes.nil st, by simpa using hi, rfl⟩
  | cons x l ih =>
    intro xs st hok hi hfit
    obtain ⟨hx, hu⟩ := hok x (by simp)
    have hfit' : Fits ((xs ++ [x]) ++ l) := by simpa using hfit
    obtain ⟨r, hp, hr⟩ := isoItem_number hx
    obtain ⟨t', ha, hi'⟩ := isoAdd_item (p := p) hx (by
      cases hd : st.datePart <;> rw [hd] at hu <;> simp at hu <;> tauto) (item_frac hx hr) hi hfit'.init
    have g : IsoGoes p (x.number ++ [x.unit.isoLetter]) st (some { st with t := t', haveField := true }) :=
      IsoGoes.number (n := value x.digits) (fv := .fin r) (st' := { st with t := t' })
        (by
          obtain ⟨y, t, e, hy⟩ := number_first hx []
          rw [List.append_nil] at e
          refine ⟨y, t, e, ?_⟩
          rw [isDigit_iff] at hy; omega)
        (fun rest => hp _ (Stops.cons (letter_stop _).1) (by simpa using (letter_stop _).2))
        (fun start s => isoNumber_item hu ha)
    obtain ⟨st', g', hi2, hd⟩ := ih (xs := xs ++ [x]) (st := { st with t := t', haveField := true })
      (fun y hy => hok y (List.mem_cons_of_mem _ hy)) hi' hfit'
    refine ⟨st', ?_, by simpa using hi2, hd⟩
    rw [List.map_cons, List.flatten_cons]
    exact g.append g'

end Pg
