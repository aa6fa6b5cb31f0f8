import Verif.Spec.MonthSteps
import Verif.Props.Steps
import Verif.Lemmas.StampBack

/-!
# Property C114: months in several steps
-/

namespace Props
open Pg Spec

/-- Numbers of months added to a timestamp one after the other. -/
def monthSteps (p : Profile) : Timestamp → List Int → Res Timestamp
  | t, [] => .ok t
  | t, n :: ns => do
    let x ← t.addInterval p ⟨n, 0, 0⟩
    monthSteps p x ns

theorem addMonths_count (c : YMD) (n : Int) : (c.addMonths n).monthCount = c.monthCount + n := by
  unfold YMD.addMonths YMD.monthCount
  dsimp only
  omega

/-- Two days in the same month whose day of the month differs by `j` are `j` days apart. -/
theorem sameMonth_number {c c' : YMD} (hc : c.Real) (hc' : c'.Real) (h : c'.monthCount = c.monthCount) :
    c'.y = c.y ∧ c'.m = c.m ∧ dayNumber c' = dayNumber c + (c'.d - c.d) := by
  have b := real_bounds hc
  have b' := real_bounds hc'
  obtain ⟨y, m, d⟩ := c
  obtain ⟨y', m', d'⟩ := c'
  unfold YMD.monthCount at h
  dsimp only at *
  obtain rfl : y' = y := by omega
  obtain rfl : m' = m := by omega
  refine ⟨rfl, rfl, ?_⟩
  unfold dayNumber
  dsimp only
  omega

/-- The last day of the range is the last day of a month, the first one is a 24th: from the 28th on, and for earlier
days of the month, the range does not separate the days of a month. -/
theorem month_in_range {c c' : YMD} {k : Clock} (hc : c.Real) (hc' : c'.Real) (hk : k.Real) (h : c'.monthCount = c.monthCount)
    (hd : c.d ≤ c'.d ∨ 28 ≤ c'.d) (hr : TsRange (instant c k)) : TsRange (instant c' k) := by
  obtain ⟨ey, em, en⟩ := sameMonth_number hc hc' h
  have hy := stamp_year hc hk hr
  have hm := micros_bounds hk
  have b := real_bounds hc
  have b' := real_bounds hc'
  have u := fun x => dayNumber_lt_iff (a := c') (b := ⟨294277, 1, 1⟩) hc' (by decide) |>.2 x
  have u' := u (Or.inl (by dsimp only; omega))
  rw [show dayNumber ⟨294277, 1, 1⟩ = 106751983 from by decide] at u'
  have l : -2451545 ≤ dayNumber c' := by
    by_contra hlt
    have l1 := (dayNumber_lt_iff (a := c') (b := ⟨-4713, 11, 24⟩) hc' (by decide)).1 (by
      rw [show dayNumber ⟨-4713, 11, 24⟩ = -2451545 from by decide]; omega)
    have l2 : ¬ c.lt ⟨-4713, 11, 24⟩ := by
      intro hl
      have := (dayNumber_lt_iff hc (by decide)).2 hl
      rw [show dayNumber ⟨-4713, 11, 24⟩ = -2451545 from by decide] at this
      rw [tsRange_iff] at hr
      unfold instant dayMicros at hr
      omega
    unfold YMD.lt at l1 l2
    dsimp only at l1 l2
    omega
  rw [tsRange_iff] at hr ⊢
  unfold instant dayMicros at *
  omega

theorem monthStep_ok (p : Profile) {t r : Timestamp} {c : YMD} {k : Clock} {n : Int} (hc : c.Real) (hk : k.Real)
    (ht : instant c k = t.v) (hr : TsRange t.v) (hn : In32 n) (h : t.addInterval p ⟨n, 0, 0⟩ = .ok r) :
    r.v = instant (c.addMonths n) k ∧ TsRange r.v := by
  obtain ⟨c', k', hc', hk', hi, h1, h2⟩ := C10_add_months p t n hr hn
  obtain ⟨rfl, rfl⟩ := instant_unique hc' hc hk' hk (hi.trans ht.symm)
  by_cases hx : TsRange (instant (c'.addMonths n) k')
  · rw [h1 hx] at h
    injection h with h
    subst h
    exact ⟨rfl, hx⟩
  · have := h2 hx
    rw [h] at this
    obtain ⟨a, ha⟩ := this
    cases ha

theorem addMonths_day {c : YMD} (_ : c.Real) (n : Int) :
    (c.addMonths n).d ≤ c.d ∧ (c.d ≤ (c.addMonths n).d ∨ 28 ≤ (c.addMonths n).d) := by
  have g := monthDays_bounds ((c.y * 12 + (c.m - 1) + n) / 12) ((c.y * 12 + (c.m - 1) + n) % 12 + 1)
  unfold YMD.addMonths
  dsimp only
  split <;> omega

theorem monthSteps_day (p : Profile) (ns : List Int) (hn : ∀ n ∈ ns, In32 n) : ∀ {t r : Timestamp} {c : YMD} {k : Clock}, c.Real → k.Real →
    instant c k = t.v → TsRange t.v → monthSteps p t ns = .ok r →
    ∃ e : YMD, e.Real ∧ r.v = instant e k ∧ TsRange r.v ∧ e.monthCount = c.monthCount + ns.sum ∧ e.d ≤ c.d ∧
      (c.d ≤ e.d ∨ 28 ≤ e.d) := by
  induction ns with
  | nil =>
    intro t r c k hc hk ht hr h
    unfold monthSteps at h
    injection h with h
    subst h
    exact ⟨c, hc, ht.symm, hr, by simp, Int.le_refl _, .inl (Int.le_refl _)⟩
  | cons n ns ih =>
    intro t r c k hc hk ht hr h
    unfold monthSteps at h
    cases hx : t.addInterval p ⟨n, 0, 0⟩ with
    | ok x =>
      rw [hx, Res.bind_ok] at h
      obtain ⟨e1, e2⟩ := monthStep_ok p hc hk ht hr (hn n (by simp)) hx
      obtain ⟨e, q1, q2, q3, q4, q5, q6⟩ := ih (fun m hm => hn m (by simp [hm])) (addMonths_real hc n) hk e1.symm e2 h
      have q := addMonths_day hc n
      rw [addMonths_count] at q4
      exact ⟨e, q1, q2, q3, by rw [q4, List.sum_cons]; omega, by omega, by omega⟩
    | err e => rw [hx] at h; cases h
    | panic => rw [hx] at h; cases h

/-- **C114.** Months added in several steps, if all steps succeed, lead into the same month and to the same clock time
as the same number of months added at once, which succeeds then as well; the day is never later, at most three days
earlier, and the same one for the days 1 to 28 of a month. -/
theorem C114_steps (p p' : Profile) (t r : Timestamp) (c : YMD) (k : Clock) (ns : List Int) (hc : c.Real) (hk : k.Real)
    (ht : instant c k = t.v) (hr : TsRange t.v) (hn : ∀ n ∈ ns, In32 n) (h : monthSteps p t ns = .ok r) :
    ∃ (s : Timestamp) (e : YMD) (j : Int), t.addInterval p' ⟨ns.sum, 0, 0⟩ = .ok s ∧ e.Real ∧ (⟨e.y, e.m, e.d - j⟩ : YMD).Real ∧
      e.monthCount = c.monthCount + ns.sum ∧ s.v = instant e k ∧ r.v = instant ⟨e.y, e.m, e.d - j⟩ k ∧
      0 ≤ j ∧ j ≤ 3 ∧ (c.d ≤ 28 → j = 0) ∧ s.v - r.v = j * dayMicros := by
  obtain ⟨e, e1, e2, e3, e4, e5, e6⟩ := monthSteps_day p ns hn hc hk ht hr h
  have a1 := addMonths_real hc ns.sum
  have a2 := addMonths_day hc ns.sum
  have a3 := addMonths_count c ns.sum
  obtain ⟨m1, m2, m3⟩ := sameMonth_number e1 a1 (by rw [a3, e4])
  have b := real_bounds a1
  have b' := real_bounds e1
  -- the day reached in several steps fits into the month, so it is not later
  have hle : e.d ≤ (c.addMonths ns.sum).d := by
    have hm := e1.2.2.2
    rw [← m1, ← m2] at hm
    unfold YMD.addMonths at hm ⊢
    dsimp only at hm ⊢
    split <;> omega
  have hin : TsRange (instant (c.addMonths ns.sum) k) :=
    month_in_range e1 a1 hk (by rw [a3, e4]) (.inl hle) (e2 ▸ e3)
  have y1 := stamp_year hc hk (ht ▸ hr)
  have y2 := stamp_year e1 hk (e2 ▸ e3)
  have hs : In32 ns.sum := by
    have bc := real_bounds hc
    unfold YMD.monthCount at e4
    unfold In32
    omega
  obtain ⟨c', k', hc', hk', hi, h1, -⟩ := C10_add_months p' t ns.sum hr hs
  obtain ⟨rfl, rfl⟩ := instant_unique hc' hc hk' hk (hi.trans ht.symm)
  have hE : (⟨(c'.addMonths ns.sum).y, (c'.addMonths ns.sum).m, (c'.addMonths ns.sum).d - ((c'.addMonths ns.sum).d - e.d)⟩ : YMD) = e := by
    rw [m1, m2]
    obtain ⟨y, m, d⟩ := e
    simp
  refine ⟨_, c'.addMonths ns.sum, (c'.addMonths ns.sum).d - e.d, h1 hin, a1, by rw [hE]; exact e1, a3, rfl, by rw [hE]; exact e2, by omega,
    by omega, by omega, ?_⟩
  rw [e2]
  unfold instant
  rw [m3]
  generalize dayNumber e = A
  unfold dayMicros
  dsimp only
  omega

/-- **C114.** Whether a further step is possible depends only on the total number of months. -/
theorem C114_possible (p p' : Profile) (t x : Timestamp) (c : YMD) (k : Clock) (m n : Int) (hc : c.Real) (hk : k.Real)
    (ht : instant c k = t.v) (hr : TsRange t.v) (hm : In32 m) (hn : In32 n) (hmn : In32 (m + n)) (h : t.addInterval p ⟨m, 0, 0⟩ = .ok x) :
    (∃ r, x.addInterval p ⟨n, 0, 0⟩ = .ok r) ↔ ∃ s, t.addInterval p' ⟨m + n, 0, 0⟩ = .ok s := by
  constructor
  · rintro ⟨r, h2⟩
    obtain ⟨s, -, -, e, -⟩ := C114_steps p p' t r c k [m, n] hc hk ht hr (by simp [hm, hn]) (by
      unfold monthSteps; rw [h, Res.bind_ok]; unfold monthSteps; rw [h2, Res.bind_ok]; rfl)
    exact ⟨s, by simpa using e⟩
  · rintro ⟨s, h2⟩
    obtain ⟨e1, e2⟩ := monthStep_ok p hc hk ht hr hm h
    obtain ⟨f1, f2⟩ := monthStep_ok p' hc hk ht hr hmn h2
    have r1 := addMonths_real hc m
    have r2 := addMonths_real r1 n
    have r3 := addMonths_real hc (m + n)
    have q1 := addMonths_day hc m
    have q2 := addMonths_day r1 n
    have q3 := addMonths_day hc (m + n)
    have hin : TsRange (instant ((c.addMonths m).addMonths n) k) := by
      refine month_in_range r3 r2 hk (by rw [addMonths_count, addMonths_count, addMonths_count]; omega) ?_ (f1 ▸ f2)
      omega
    obtain ⟨c', k', hc', hk', hi, h1, -⟩ := C10_add_months p x n e2 hn
    obtain ⟨rfl, rfl⟩ := instant_unique hc' r1 hk' hk (hi.trans e1)
    exact ⟨_, h1 hin⟩

/-- **C114.** Months forth and back: subtracting the months just added always succeeds and leads to the same month and
clock time, not later than the timestamp one started from and at most three days before it; for the days 1 to 28 of a
month it leads to that timestamp itself. The same holds for months back and forth. -/
theorem C114_there_and_back (p : Profile) (t x : Timestamp) (c : YMD) (k : Clock) (n : Int) (hc : c.Real) (hk : k.Real)
    (ht : instant c k = t.v) (hr : TsRange t.v) (hn : In32 n) (hn' : In32 (-n)) (h : t.addInterval p ⟨n, 0, 0⟩ = .ok x) :
    ∃ (y : Timestamp) (j : Int), x.subInterval p ⟨n, 0, 0⟩ = .ok y ∧ y.v = instant ⟨c.y, c.m, c.d - j⟩ k ∧
      (⟨c.y, c.m, c.d - j⟩ : YMD).Real ∧ 0 ≤ j ∧ j ≤ 3 ∧ (c.d ≤ 28 → y = t) ∧ (y = t ↔ j = 0) ∧ t.v - y.v = j * dayMicros := by
  have e : x.subInterval p ⟨n, 0, 0⟩ = x.addInterval p ⟨-n, 0, 0⟩ := by
    rw [C13_sub_is_add_neg]
    dsimp only
    rw [if_pos ⟨hn', by decide, by decide⟩]
    rfl
  have h0 : t.addInterval p ⟨0, 0, 0⟩ = .ok t := by
    obtain ⟨c', k', hc', hk', hi, h1, -⟩ := C10_add_months p t 0 hr (by decide)
    obtain ⟨rfl, rfl⟩ := instant_unique hc' hc hk' hk (hi.trans ht.symm)
    have z : c'.addMonths 0 = c' := by
      have hb := real_bounds hc
      obtain ⟨y, m, d⟩ := c'
      have hd := hc.2.2.2
      unfold YMD.addMonths
      dsimp only at hb hd ⊢
      have e1 : (y * 12 + (m - 1) + 0) / 12 = y := by omega
      have e2 : (y * 12 + (m - 1) + 0) % 12 + 1 = m := by omega
      rw [e1, e2, if_pos hd]
    rw [z, ht] at h1
    exact h1 hr
  obtain ⟨r, h2⟩ := (C114_possible p p t x c k n (-n) hc hk ht hr hn hn' (by rw [Int.add_right_neg]; decide) h).2
    ⟨t, by rw [Int.add_right_neg]; exact h0⟩
  obtain ⟨s, d, j, e1, e2, e3, e4, e5, e6, e7, e8, e9, e10⟩ := C114_steps p p t r c k [n, -n] hc hk ht hr (by simp [hn, hn']) (by
    unfold monthSteps; rw [h, Res.bind_ok]; unfold monthSteps; rw [h2, Res.bind_ok]; rfl)
  have hz : [n, -n].sum = 0 := by simp
  rw [hz] at e1
  rw [h0] at e1
  injection e1 with e1
  subst e1
  obtain ⟨rfl, -⟩ := instant_unique e2 hc hk hk (e5.symm.trans ht.symm)
  have key : r = t ↔ j = 0 := by
    obtain ⟨r⟩ := r
    obtain ⟨t⟩ := t
    rw [Timestamp.mk.injEq]
    unfold dayMicros at e10
    dsimp only at e10
    omega
  exact ⟨r, j, by rw [e]; exact h2, e6, e3, e7, e8, fun hd => key.2 (e9 hd), key, e10⟩

/-- Twelve single months from the end of January 2024: one month at a time the day sinks to the 28th, at once it
stays the 31st. -/
example (p : Profile) : monthSteps p ⟨instant ⟨2024, 1, 31⟩ ⟨1, 2, 3, 4⟩⟩ [1, 11, 1, 11] = .ok ⟨instant ⟨2026, 1, 28⟩ ⟨1, 2, 3, 4⟩⟩ ∧
    (⟨instant ⟨2024, 1, 31⟩ ⟨1, 2, 3, 4⟩⟩ : Timestamp).addInterval p ⟨24, 0, 0⟩ = .ok ⟨instant ⟨2026, 1, 31⟩ ⟨1, 2, 3, 4⟩⟩ := by
  constructor <;> (cases p <;> decide +kernel)
example : (⟨2024, 1, 31⟩ : YMD).Real ∧ (⟨1, 2, 3, 4⟩ : Clock).Real ∧ TsRange (instant ⟨2024, 1, 31⟩ ⟨1, 2, 3, 4⟩) ∧
    ∀ n ∈ [1, 11, 1, 11], In32 n := by decide
/-- At the beginning of the range: from November 30, 4714 BC, three months forth and back. -/
example (p : Profile) : (⟨instant ⟨-4713, 11, 30⟩ ⟨0, 0, 0, 0⟩⟩ : Timestamp).addInterval p ⟨3, 0, 0⟩ = .ok ⟨instant ⟨-4712, 2, 29⟩ ⟨0, 0, 0, 0⟩⟩ ∧
    (⟨instant ⟨-4712, 2, 29⟩ ⟨0, 0, 0, 0⟩⟩ : Timestamp).subInterval p ⟨3, 0, 0⟩ = .ok ⟨instant ⟨-4713, 11, 29⟩ ⟨0, 0, 0, 0⟩⟩ := by
  constructor <;> (cases p <;> decide +kernel)

end Props
