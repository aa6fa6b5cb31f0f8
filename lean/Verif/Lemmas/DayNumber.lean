import Verif.Lemmas.Julian

/-! # Order and successor properties of the day count -/

namespace Pg
open Spec

theorem monthDays_bounds (y m : Int) : 28 ≤ monthDays y m ∧ monthDays y m ≤ 31 := by
  unfold monthDays; split
  · split <;> omega
  · split <;> omega

/-- Day count by year and day of year. -/
theorem jdn_year_bounds (y m d : Int) (h : (⟨y, m, d⟩ : YMD).Real) :
    jdn y 1 1 ≤ jdn y m d ∧ jdn y m d < jdn (y + 1) 1 1 := by
  obtain ⟨h1, h2, h3, h4⟩ := h
  simp only at h1 h2 h3 h4
  have hm : m = 1 ∨ m = 2 ∨ m = 3 ∨ m = 4 ∨ m = 5 ∨ m = 6 ∨ m = 7 ∨ m = 8 ∨ m = 9 ∨ m = 10 ∨
      m = 11 ∨ m = 12 := by omega
  rw [jdn_closed _ _ _ h1 h2, jdn_closed _ _ _ (by omega) (by omega),
    jdn_closed _ _ _ (by omega) (by omega)]
  unfold monthDays Leap at h4
  rcases hm with h|h|h|h|h|h|h|h|h|h|h|h <;> subst h <;> simp at h4 ⊢ <;> omega

theorem jdn_jan1_mono {y y' : Int} (h : y ≤ y') : jdn y 1 1 ≤ jdn y' 1 1 := by
  rw [jdn_closed _ _ _ (by omega) (by omega), jdn_closed _ _ _ (by omega) (by omega)]
  simp; omega

theorem jdn_lt_of_year_lt {y m d y' m' d' : Int} (h : (⟨y, m, d⟩ : YMD).Real)
    (h' : (⟨y', m', d'⟩ : YMD).Real) (hy : y < y') : jdn y m d < jdn y' m' d' := by
  have a := (jdn_year_bounds _ _ _ h).2
  have b := (jdn_year_bounds _ _ _ h').1
  have c := jdn_jan1_mono (y := y + 1) (y' := y') (by omega)
  omega

theorem jdn_month_step (y m : Int) (h1 : 1 ≤ m) (h2 : m < 12) :
    jdn y (m + 1) 1 = jdn y m 1 + monthDays y m := by
  have hm : m = 1 ∨ m = 2 ∨ m = 3 ∨ m = 4 ∨ m = 5 ∨ m = 6 ∨ m = 7 ∨ m = 8 ∨ m = 9 ∨ m = 10 ∨
      m = 11 := by omega
  rw [jdn_closed _ _ _ (by omega) (by omega), jdn_closed _ _ _ (by omega) (by omega)]
  unfold monthDays Leap
  rcases hm with h|h|h|h|h|h|h|h|h|h|h <;> subst h <;> simp <;> omega

theorem jdn_year_step (y : Int) : jdn (y + 1) 1 1 = jdn y 12 1 + 31 := by
  rw [jdn_closed _ _ _ (by omega) (by omega), jdn_closed _ _ _ (by omega) (by omega)]
  simp; omega

theorem jdn_day (y m d : Int) (h1 : 1 ≤ m) (h2 : m ≤ 12) : jdn y m d = jdn y m 1 + (d - 1) := by
  rw [jdn_closed _ _ _ (by omega) (by omega), jdn_closed _ _ _ (by omega) (by omega)]
  split <;> omega

theorem jdn_month_mono (y : Int) (m : Int) (h1 : 1 ≤ m) (n : Nat) (h2 : m + n ≤ 12) :
    jdn y m 1 ≤ jdn y (m + n) 1 := by
  induction n with
  | zero => simp
  | succ k ih =>
    have := jdn_month_step y (m + k) (by omega) (by omega)
    have hb := (monthDays_bounds y (m + k)).1
    have := ih (by omega)
    rw [show m + ((k + 1 : Nat) : Int) = m + k + 1 by omega]
    omega

theorem jdn_lt_of_lt {a b : YMD} (ha : a.Real) (hb : b.Real) (h : a.lt b) :
    jdn a.y a.m a.d < jdn b.y b.m b.d := by
  rcases h with h | ⟨hy, h | ⟨hm, h⟩⟩
  · exact jdn_lt_of_year_lt ha hb h
  · obtain ⟨a1, a2, a3, a4⟩ := ha
    obtain ⟨b1, b2, b3, b4⟩ := hb
    rw [jdn_day _ _ a.d a1 a2, jdn_day _ _ b.d b1 b2, hy]
    have s := jdn_month_step b.y a.m a1 (by omega)
    have t := jdn_month_mono b.y (a.m + 1) (by omega) (b.m - a.m - 1).toNat (by omega)
    rw [show a.m + 1 + ((b.m - a.m - 1).toNat : Int) = b.m by omega] at t
    rw [hy] at a4
    omega
  · obtain ⟨a1, a2, a3, a4⟩ := ha
    rw [hy, hm, jdn_day _ _ a.d (by omega) (by omega), jdn_day b.y b.m b.d (by omega) (by omega)]
    omega

theorem ymd_trichotomy (a b : YMD) : a.lt b ∨ a = b ∨ b.lt a := by
  obtain ⟨ay, am, ad⟩ := a
  obtain ⟨yb, bm, bd⟩ := b
  unfold YMD.lt
  simp only [YMD.mk.injEq]
  omega

theorem jdn_inj {y m d y' m' d' : Int} (h : (⟨y, m, d⟩ : YMD).Real)
    (h' : (⟨y', m', d'⟩ : YMD).Real) (he : jdn y m d = jdn y' m' d') :
    y = y' ∧ m = m' ∧ d = d' := by
  rcases ymd_trichotomy ⟨y, m, d⟩ ⟨y', m', d'⟩ with c | c | c
  · have := jdn_lt_of_lt h h' c; simp only at this; omega
  · simpa using c
  · have := jdn_lt_of_lt h' h c; simp only at this; omega

theorem lt_of_jdn_lt {a b : YMD} (ha : a.Real) (hb : b.Real)
    (h : jdn a.y a.m a.d < jdn b.y b.m b.d) : a.lt b := by
  rcases ymd_trichotomy a b with c | c | c
  · exact c
  · subst c; omega
  · have := jdn_lt_of_lt hb ha c; omega

theorem next_real {c : YMD} (h : c.Real) : c.next.Real := by
  obtain ⟨h1, h2, h3, h4⟩ := h
  unfold YMD.next
  split
  · exact ⟨h1, h2, by simp only; omega, by simp only; omega⟩
  · split
    · refine ⟨by simp only; omega, by simp only; omega, by simp, ?_⟩
      have := (monthDays_bounds c.y (c.m + 1)).1
      simp only; omega
    · refine ⟨by simp, by simp, by simp, ?_⟩
      have := (monthDays_bounds (c.y + 1) 1).1
      simp only; omega

theorem jdn_next {c : YMD} (h : c.Real) :
    jdn c.next.y c.next.m c.next.d = jdn c.y c.m c.d + 1 := by
  obtain ⟨h1, h2, h3, h4⟩ := h
  unfold YMD.next
  split
  · simp only
    rw [jdn_day _ _ (c.d + 1) h1 h2, jdn_day _ _ c.d h1 h2]; omega
  · split
    · simp only
      rw [jdn_month_step _ _ h1 (by omega), jdn_day _ _ c.d h1 h2]; omega
    · have hm : c.m = 12 := by omega
      have h31 : monthDays c.y c.m = 31 := by rw [hm]; simp [monthDays]
      simp only [hm]
      rw [jdn_year_step, jdn_day _ _ c.d (by omega) (by omega)]
      omega

theorem julian2date_jdn (p : Profile) (y m d : Int) (h : (⟨y, m, d⟩ : YMD).Real)
    (h0 : 0 ≤ jdn y m d) (h1 : jdn y m d ≤ 2147483647) :
    julian2date p (jdn y m d) = .ok (y, m, d) := by
  obtain ⟨y', m', d', he, hj, hr⟩ := julian2date_spec p (jdn y m d) h0 h1
  obtain ⟨rfl, rfl, rfl⟩ := jdn_inj hr h hj
  exact he

/-- Year range of the supported Julian days. -/
theorem year_of_jdn_nonneg {y m d : Int} (h : (⟨y, m, d⟩ : YMD).Real) (h0 : 0 ≤ jdn y m d) :
    -4713 ≤ y ∧ (y = -4713 → 11 ≤ m) := by
  obtain ⟨h1, h2, h3, h4⟩ := h
  have hb := monthDays_bounds y m
  simp only at h1 h2 h3 h4
  rw [jdn_closed _ _ _ h1 h2] at h0
  split at h0 <;> omega

theorem year_of_jdn_lt {y m d : Int} (h : (⟨y, m, d⟩ : YMD).Real) (h0 : jdn y m d < 2147483494) :
    y ≤ 5874897 := by
  have := (jdn_year_bounds _ _ _ h).1
  have j : jdn 5874898 1 1 = 2147483494 := by decide
  by_cases hy : y ≤ 5874897
  · exact hy
  · have := jdn_jan1_mono (y := 5874898) (y' := y) (by omega)
    omega

end Pg
