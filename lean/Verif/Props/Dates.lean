import Verif.Lemmas.Date

/-!
# Properties C01-C05: construction, numbering, fields and day arithmetic of `Date`
-/

namespace Props
open Pg Spec

theorem tryFromYmd_ok {p : Profile} {y m d : Int} {a : Date} (hy : In32 y)
    (h : Date.tryFromYmd p y m d = .ok a) :
    ApiDate y m d ∧ a.v = dayNumber ⟨apiYear y, m, d⟩ := by
  by_cases hmin : y ≠ -2147483648 ∨ p = .release
  · rw [tryFromYmd_eq p y m d hy hmin] at h
    split at h
    · injection h with h; subst h; exact ⟨‹_›, rfl⟩
    · cases h
  · have h1 : y = -2147483648 := by omega
    have h2 : p = .debug := by cases p <;> simp_all
    subst h1 h2
    have : Date.absYear .debug (-2147483648) = .panic := by decide
    unfold Date.tryFromYmd at h
    rw [this] at h; cases h

/-- **C01 (release builds).** `try_from_ymd` succeeds exactly on the supported calendar dates and
returns an error for every other triple; it never panics. -/
theorem C01_release (y m d : Int) (hy : In32 y) :
    (ApiDate y m d → ∃ a, Date.tryFromYmd .release y m d = .ok a) ∧
    (¬ ApiDate y m d → (Date.tryFromYmd .release y m d).IsErr) := by
  rw [tryFromYmd_eq _ y m d hy (.inr rfl)]
  constructor
  · intro h; rw [if_pos h]; exact ⟨_, rfl⟩
  · intro h; rw [if_neg h]; exact ⟨_, rfl⟩

/-- **C01, partial.** In both build profiles, for every year except `i32::MIN`. Missing: year
`i32::MIN` in debug builds, where the call panics (`C01_debug_panics`). -/
theorem C01_partial (p : Profile) (y m d : Int) (hy : In32 y) (hmin : y ≠ -2147483648) :
    (ApiDate y m d → ∃ a, Date.tryFromYmd p y m d = .ok a) ∧
    (¬ ApiDate y m d → (Date.tryFromYmd p y m d).IsErr) := by
  rw [tryFromYmd_eq _ y m d hy (.inl hmin)]
  constructor
  · intro h; rw [if_pos h]; exact ⟨_, rfl⟩
  · intro h; rw [if_neg h]; exact ⟨_, rfl⟩

/-- **C01, violation.** In debug builds the year `i32::MIN` panics for every month and day. -/
theorem C01_debug_panics (m d : Int) : Date.tryFromYmd .debug (-2147483648) m d = .panic := by
  unfold Date.tryFromYmd
  rw [show Date.absYear .debug (-2147483648) = .panic from by decide]; rfl

example : ApiDate 2024 2 29 ∧ ¬ ApiDate 2023 2 29 ∧ ¬ ApiDate 0 1 1 ∧ ApiDate (-4714) 11 24 ∧
    ¬ ApiDate (-4714) 11 23 ∧ ApiDate 5874897 12 31 ∧ ¬ ApiDate 5874898 1 1 := by decide
example : Date.tryFromYmd .debug 2024 2 29 = .ok ⟨8825⟩ := by decide
example : Date.tryFromYmd .debug 1900 2 29 = .err .overflow := by decide

/-- **C02.** 2000-01-01 is day 0; the successor day has the successor number; the numbering is
strictly monotone for the calendar order, and injective. -/
theorem C02 (p : Profile) {y m d y' m' d' : Int} {a b : Date} (hy : In32 y) (hy' : In32 y')
    (ha : Date.tryFromYmd p y m d = .ok a) (hb : Date.tryFromYmd p y' m' d' = .ok b) :
    Date.tryFromYmd p 2000 1 1 = .ok ⟨0⟩ ∧
    ((⟨apiYear y', m', d'⟩ : YMD) = (⟨apiYear y, m, d⟩ : YMD).next → b.v = a.v + 1) ∧
    (a.v < b.v ↔ (⟨apiYear y, m, d⟩ : YMD).lt ⟨apiYear y', m', d'⟩) ∧
    (a = b ↔ y = y' ∧ m = m' ∧ d = d') := by
  obtain ⟨h1, e1⟩ := tryFromYmd_ok hy ha
  obtain ⟨h2, e2⟩ := tryFromYmd_ok hy' hb
  refine ⟨?_, ?_, ?_, ?_⟩
  · rw [tryFromYmd_eq p 2000 1 1 (by decide) (.inl (by omega)), if_pos (by decide)]; decide
  · intro hn
    rw [e1, e2, hn]
    have hj := jdn_next h1.2.1
    rw [jdn_eq, jdn_eq] at hj
    omega
  · rw [e1, e2]; exact dayNumber_lt_iff h1.2.1 h2.2.1
  · constructor
    · intro h
      have := dayNumber_inj h1.2.1 h2.2.1 (by rw [← e1, ← e2, h])
      simp only [YMD.mk.injEq] at this
      obtain ⟨hyy, hm, hd⟩ := this
      have n1 := h1.1
      have n2 := h2.1
      unfold apiYear at hyy
      refine ⟨?_, hm, hd⟩
      split at hyy <;> split at hyy <;> omega
    · rintro ⟨rfl, rfl, rfl⟩
      cases a; cases b; simp_all

example : Date.tryFromYmd .debug 1999 12 31 = .ok ⟨-1⟩ ∧
    Date.tryFromYmd .debug (-1) 12 31 = .ok ⟨-730120⟩ ∧
    Date.tryFromYmd .debug 1 1 1 = .ok ⟨-730119⟩ ∧
    (⟨apiYear 1, 1, 1⟩ : YMD) = (⟨apiYear (-1), 12, 31⟩ : YMD).next := by decide

/-- **C03 (construct, then read).** The fields of a constructed date are the arguments. -/
theorem C03_fields_of_ymd (p : Profile) {y m d : Int} {a : Date} (hy : In32 y)
    (h : Date.tryFromYmd p y m d = .ok a) : a.fields p = .ok (apiYear y, m, d) := by
  obtain ⟨h1, e1⟩ := tryFromYmd_ok hy h
  have hr := (inDateRange_iff h1.2.1).1 h1.2.2
  rw [dateRange_iff] at hr
  have e := jdn_eq ⟨apiYear y, m, d⟩
  simp only at e
  unfold Date.fields
  rw [e1, chk32_ok (by omega)]
  simp only [Res.bind_ok]
  rw [← e]
  exact julian2date_jdn p _ _ _ h1.2.1 (by omega) (by omega)

/-- **C03 (read, then construct).** The fields of every valid date are a real calendar day, and
constructing from them gives the date back. -/
theorem C03_ymd_of_fields (p : Profile) (a : Date) (ha : DateRange a.v) :
    ∃ y m d, In32 y ∧ a.fields p = .ok (apiYear y, m, d) ∧ (⟨apiYear y, m, d⟩ : YMD).Real ∧
      Date.tryFromYmd p y m d = .ok a := by
  have hr := (dateRange_iff _).1 ha
  obtain ⟨y, m, d, he, hj, hreal⟩ := julian2date_spec p (a.v + 2451545) (by omega) (by omega)
  have hn : dayNumber ⟨y, m, d⟩ = a.v := by unfold jdn at hj; omega
  have hy0 := year_of_jdn_nonneg hreal (by omega)
  have hy1 := year_of_jdn_lt hreal (by omega)
  have hapi : apiYear (if y ≤ 0 then y - 1 else y) = y := by
    unfold apiYear; split <;> split <;> omega
  refine ⟨if y ≤ 0 then y - 1 else y, m, d, ?_, ?_, ?_, ?_⟩
  · unfold In32; split <;> omega
  · unfold Date.fields
    rw [chk32_ok (by omega), hapi]; exact he
  · rw [hapi]; exact hreal
  · rw [tryFromYmd_eq p _ m d (by unfold In32; split <;> omega) (.inl (by split <;> omega)),
      if_pos, hapi, hn]
    refine ⟨by split <;> omega, by rw [hapi]; exact hreal, ?_⟩
    rw [hapi, inDateRange_iff hreal, hn]; exact ha

example : DateRange (-2451545) ∧ (⟨-2451545⟩ : Date).fields .debug = .ok (-4713, 11, 24) ∧
    DateRange 2145031948 ∧ (⟨2145031948⟩ : Date).fields .debug = .ok (5874897, 12, 31) := by decide

/-- **C04.** Day arithmetic on finite valid dates is exact within the supported range and an error
outside it. -/
theorem C04_add_sub_days (a : Date) (n : Int) (ha : DateRange a.v) (_hn : In32 n) :
    (DateRange (a.v + n) → a.addDays n = .ok ⟨a.v + n⟩) ∧
    (¬ DateRange (a.v + n) → (a.addDays n).IsErr) ∧
    (DateRange (a.v - n) → a.subDays n = .ok ⟨a.v - n⟩) ∧
    (¬ DateRange (a.v - n) → (a.subDays n).IsErr) := by
  have hi : a.isInfinite = false := by
    rw [dateRange_iff] at ha; unfold Date.isInfinite; simp; omega
  unfold Date.addDays Date.subDays
  simp only [hi, Bool.false_eq_true, if_false]
  have key : ∀ x, DateRange x → (-2147483648 ≤ x ∧ x ≤ 2147483647) := by
    intro x hx; rw [dateRange_iff] at hx; omega
  refine ⟨?_, ?_, ?_, ?_⟩
  · intro h; rw [checked32_some (key _ h)]; simp only [isValidDate_iff, h, if_true]
  · intro h
    by_cases hc : -2147483648 ≤ a.v + n ∧ a.v + n ≤ 2147483647
    · rw [checked32_some hc]; simp only [isValidDate_iff, h, if_false]; exact ⟨_, rfl⟩
    · rw [checked32_none hc]; exact ⟨_, rfl⟩
  · intro h; rw [checked32_some (key _ h)]; simp only [isValidDate_iff, h, if_true]
  · intro h
    by_cases hc : -2147483648 ≤ a.v - n ∧ a.v - n ≤ 2147483647
    · rw [checked32_some hc]; simp only [isValidDate_iff, h, if_false]; exact ⟨_, rfl⟩
    · rw [checked32_none hc]; exact ⟨_, rfl⟩

/-- **C04.** Subtracting undoes adding. -/
theorem C04_sub_undoes_add (a b : Date) (n : Int) (ha : DateRange a.v) (hn : In32 n)
    (h : a.addDays n = .ok b) : b.subDays n = .ok a ∧ DateRange b.v := by
  have h1 := C04_add_sub_days a n ha hn
  have hb : DateRange (a.v + n) := by
    by_cases hc : DateRange (a.v + n)
    · exact hc
    · obtain ⟨e, he⟩ := h1.2.1 hc; rw [he] at h; cases h
  rw [h1.1 hb] at h
  injection h with h; subst h
  have h2 := C04_add_sub_days ⟨a.v + n⟩ n hb hn
  refine ⟨?_, hb⟩
  rw [h2.2.2.1 (by simp only; rw [show a.v + n - n = a.v by omega]; exact ha)]
  simp only [show a.v + n - n = a.v by omega]

/-- **C04.** Infinite dates are left unchanged; no call panics, for any value. -/
theorem C04_infinite_and_total (a : Date) (n : Int) :
    (a = Date.BEGIN ∨ a = Date.END → a.addDays n = .ok a ∧ a.subDays n = .ok a) ∧
    (a.addDays n).NoPanic ∧ (a.subDays n).NoPanic := by
  refine ⟨?_, ?_, ?_⟩
  · rintro (rfl | rfl) <;> exact ⟨rfl, rfl⟩
  · unfold Date.addDays; repeat' split
    all_goals simp
  · unfold Date.subDays; repeat' split
    all_goals simp

example : DateRange 0 ∧ (⟨0⟩ : Date).addDays 366 = .ok ⟨366⟩ ∧
    (⟨0⟩ : Date).subDays 2451546 = .err .invalid := by decide

/-- **C05.** Difference of two valid finite dates: exact, antisymmetric, inverse to adding. -/
theorem C05_difference (p : Profile) (a b : Date) (ha : DateRange a.v) (hb : DateRange b.v) :
    a.subDate p b = .ok (a.v - b.v) ∧ b.subDate p a = .ok (-(a.v - b.v)) ∧
    b.addDays (a.v - b.v) = .ok a := by
  have ha' := (dateRange_iff _).1 ha
  have hb' := (dateRange_iff _).1 hb
  have hi : a.isInfinite = false := by unfold Date.isInfinite; simp; omega
  have hj : b.isInfinite = false := by unfold Date.isInfinite; simp; omega
  refine ⟨?_, ?_, ?_⟩
  · unfold Date.subDate
    simp only [hi, hj, Bool.or_self, Bool.false_eq_true, if_false]
    exact chk32_ok (by omega)
  · unfold Date.subDate
    simp only [hi, hj, Bool.or_self, Bool.false_eq_true, if_false]
    rw [chk32_ok (by omega), show b.v - a.v = -(a.v - b.v) by omega]
  · have := (C04_add_sub_days b (a.v - b.v) hb (by unfold In32; omega)).1
      (by rw [show b.v + (a.v - b.v) = a.v by omega]; exact ha)
    rw [this, show b.v + (a.v - b.v) = a.v by omega]

/-- **C05.** A difference with an infinite date is an `Invalid` error. -/
theorem C05_infinite (p : Profile) (a b : Date)
    (h : a = Date.BEGIN ∨ a = Date.END ∨ b = Date.BEGIN ∨ b = Date.END) :
    a.subDate p b = .err .invalid := by
  have : (a.isInfinite || b.isInfinite) = true := by
    rcases h with rfl | rfl | rfl | rfl <;> simp [Date.isInfinite, Date.BEGIN, Date.END]
  unfold Date.subDate
  rw [this]; rfl

example : DateRange (-2451545) ∧ DateRange 2145031948 ∧
    (⟨2145031948⟩ : Date).subDate .debug ⟨-2451545⟩ = .ok 2147483493 := by decide

end Props
