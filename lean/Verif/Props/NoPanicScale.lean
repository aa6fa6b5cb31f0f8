import Verif.Props.NoPanicCalc

/-!
# Property C87: scaling of intervals in a debug build
-/

namespace Pg
open Spec Props

/-- A float in the range of `i32` converts to its integer part. -/
theorem toI32_in {r : Rat} (h1 : -2147483649 < r) (h2 : r < 2147483648) :
    (F64.fin r).toI32 = F64.truncQ r ∧ -1 < r - F64.truncQ r ∧ r - F64.truncQ r < 1 ∧
      -2147483648 ≤ F64.truncQ r ∧ F64.truncQ r ≤ 2147483647 := by
  have ht := F64.truncQ_facts r
  have hk : -2147483648 ≤ F64.truncQ r ∧ F64.truncQ r ≤ 2147483647 := by
    rcases ht with ⟨u, v, w, z⟩ | ⟨u, v, w, z⟩
    · have : (F64.truncQ r : Rat) < 2147483648 := by linarith
      have : F64.truncQ r < 2147483648 := by exact_mod_cast this
      omega
    · have : (-2147483649 : Rat) < F64.truncQ r := by linarith
      have : -2147483649 < F64.truncQ r := by exact_mod_cast this
      omega
  refine ⟨?_, ?_, ?_, hk.1, hk.2⟩
  · unfold F64.toI32
    simp only
    unfold F64.clamp
    rw [if_neg (by omega), if_neg (by omega)]
  · rcases ht with ⟨u, v, w, z⟩ | ⟨u, v, w, z⟩ <;> linarith
  · rcases ht with ⟨u, v, w, z⟩ | ⟨u, v, w, z⟩ <;> linarith

/-- The cascade is safe unless the days are within 35 of the limits of `i32`. -/
theorem cascade_calm (p : Profile) {m d : Rat} (hm1 : -2147483649 < m) (hm2 : m < 2147483648)
    (hd1 : -2147483613 < d) (hd2 : d < 2147483613) :
    Interval.cascade p (.fin m) (.fin d) (F64.fin m).toI32 (F64.fin d).toI32 ≠ .panic := by
  obtain ⟨e1, a1, a2, a3, a4⟩ := toI32_in hm1 hm2
  obtain ⟨e2, b1, b2, b3, b4⟩ := toI32_in (r := d) (by linarith) (by linarith)
  rw [e1, e2]
  obtain ⟨k1, k2, s, k11, k12, k21, k22, hc, -⟩ := F64.cascade_spec p (F64.truncQ m) (F64.truncQ d) a1 a2 b1 b2
    ⟨a3, a4⟩ ⟨b3, b4⟩
  have hb : -2147483613 ≤ F64.truncQ d ∧ F64.truncQ d ≤ 2147483613 := by
    constructor
    · have : (-2147483614 : Rat) < F64.truncQ d := by linarith
      have : -2147483614 < F64.truncQ d := by exact_mod_cast this
      omega
    · have : (F64.truncQ d : Rat) < 2147483614 := by linarith
      have : F64.truncQ d < 2147483614 := by exact_mod_cast this
      omega
  rw [hc (by unfold In32; omega) (by unfold In32; omega)]
  exact Res.safe_ok _

/-- Rounding of a product or quotient below `2^32`. -/
theorem rnd_below {x : Rat} (h : |x| < 2147483649) : ∃ r : Rat, F64.rnd x = .fin r ∧ |r - x| ≤ 1 / 1000000 := by
  obtain ⟨r, e, hr⟩ := F64.rnd_near (q := x) (le_trans h.le (by norm_num))
  refine ⟨r, e, le_trans hr ?_⟩
  have : |x| / 2 ^ 53 ≤ 2147483649 / 2 ^ 53 := div_le_div_of_nonneg_right h.le (by norm_num)
  refine le_trans (add_le_add_left this _) ?_
  norm_num

end Pg

namespace Props
open Pg Spec

/-- **C87, scaling.** Multiplying an interval by any number, finite or not, can panic in a debug build only if the number of
days of the product lies within 37 of a limit of 32 bits, and the months fit. -/
theorem C87_mul (a : Interval) (ha : a.WF) (f : F64) (h : a.mulF64 .debug f = .panic) :
    ∃ q : Rat, f = .fin q ∧ 2147483612 ≤ |(a.day : Rat) * q| ∧ |(a.day : Rat) * q| < 2147483649 ∧
      |(a.month : Rat) * q| < 2147483649 := by
  cases f with
  | nan => rw [C47_mul_nonfinite .debug a ha .nan (by simp)] at h; cases h
  | inf b => rw [C47_mul_nonfinite .debug a ha (.inf b) (by simp)] at h; cases h
  | fin q =>
    by_cases ho : (2147483648 ≤ a.month * q ∨ a.month * q ≤ -2147483649) ∨ (2147483648 ≤ a.day * q ∨ a.day * q ≤ -2147483649)
    · rw [C47_mul_overflow .debug a ha q ho] at h; cases h
    · simp only [not_or, not_le] at ho
      obtain ⟨⟨m1, m2⟩, d1, d2⟩ := ho
      have hm : |(a.month : Rat) * q| < 2147483649 := abs_lt.2 ⟨by linarith, by linarith⟩
      have hd : |(a.day : Rat) * q| < 2147483649 := abs_lt.2 ⟨by linarith, by linarith⟩
      refine ⟨q, rfl, ?_, hd, hm⟩
      by_contra hlt
      rw [not_le, abs_lt] at hlt
      obtain ⟨wm, wd, -⟩ := ha
      unfold In32 at wm wd
      obtain ⟨m, em, bm⟩ := rnd_below hm
      obtain ⟨d, ed, bd⟩ := rnd_below hd
      rw [abs_le] at bm bd
      unfold Interval.mulF64 at h
      rw [F64.ofInt_ok (n := a.month) (by omega), F64.ofInt_ok (n := a.day) (by omega), F64.fin_mul, F64.fin_mul, em, ed] at h
      simp only at h
      by_cases om : Interval.outOfI32 (.fin m) = true
      · rw [if_pos om] at h; cases h
      · rw [if_neg om] at h
        by_cases od : Interval.outOfI32 (.fin d) = true
        · rw [if_pos od] at h; cases h
        · rw [if_neg od] at h
          have hmr : -2147483648 ≤ m ∧ m ≤ 2147483647 := by
            unfold Interval.outOfI32 at om
            rw [F64.ofInt_ok (n := 2147483647) (by omega), F64.ofInt_ok (n := -2147483648) (by omega)] at om
            unfold F64.lt F64.isNan at om
            simp only [Bool.or_eq_true, decide_eq_true_eq, not_or, not_lt] at om
            obtain ⟨⟨-, o1⟩, o2⟩ := om
            push_cast at o1 o2
            exact ⟨o2, o1⟩
          have hc := cascade_calm .debug (m := m) (d := d) (by linarith) (by linarith) (by linarith) (by linarith)
          revert h
          refine Res.safe_bind hc fun x => ?_
          exact Res.safe_ite (Res.safe_err _) (Res.safe_ok _)

/-- **C87, scaling.** Dividing an interval by any number can panic in a debug build only if the quotient of the months or of the
days is at or beyond the limits of 32 bits, to within 2 months and 37 days. -/
theorem C87_div (a : Interval) (ha : a.WF) (f : F64) (h : a.divF64 .debug f = .panic) :
    ∃ q : Rat, f = .fin q ∧ q ≠ 0 ∧ (2147483647 ≤ |(a.month : Rat) / q| ∨ 2147483612 ≤ |(a.day : Rat) / q|) := by
  obtain ⟨wm, wd, -⟩ := ha
  unfold In32 at wm wd
  unfold Interval.divF64 at h
  by_cases h0 : f = .fin 0
  · rw [if_pos h0] at h; cases h
  rw [if_neg h0, F64.ofInt_ok (n := a.month) (by omega), F64.ofInt_ok (n := a.day) (by omega)] at h
  simp only at h
  cases f with
  | nan =>
    exfalso
    revert h
    refine Res.safe_bind ?_ fun x => Res.safe_ok _
    change Interval.cascade .debug .nan .nan 0 0 ≠ .panic
    decide +kernel
  | inf b =>
    exfalso
    revert h
    refine Res.safe_bind ?_ fun x => Res.safe_ok _
    change Interval.cascade .debug (.fin 0) (.fin 0) 0 0 ≠ .panic
    decide +kernel
  | fin q =>
    have hq : q ≠ 0 := fun e => h0 (by rw [e])
    refine ⟨q, rfl, hq, ?_⟩
    by_contra hlt
    simp only [not_or, not_le] at hlt
    obtain ⟨hm, hd⟩ := hlt
    rw [F64.fin_div hq, F64.fin_div hq] at h
    obtain ⟨m, em, bm⟩ := rnd_below (x := a.month / q) (by linarith)
    obtain ⟨d, ed, bd⟩ := rnd_below (x := a.day / q) (by linarith)
    rw [em, ed] at h
    rw [abs_le] at bm bd
    rw [abs_lt] at hm hd
    have hc := cascade_calm .debug (m := m) (d := d) (by linarith) (by linarith) (by linarith) (by linarith)
    revert h
    exact Res.safe_bind hc fun x => Res.safe_ok _

/-- Witnesses: the product with days near the limit panics, one day less of the interval does not; a quotient of months beyond
the limit panics. -/
example : (⟨1, 1431655764, 0⟩ : Interval).WF ∧ (⟨1, 1431655764, 0⟩ : Interval).mulF64 .debug (.fin (3 / 2)) = .panic ∧
    (⟨1, 1431655740, 0⟩ : Interval).mulF64 .debug (.fin (3 / 2)) = .ok ⟨1, 2147483625, 0⟩ ∧
    (⟨5, 3, 0⟩ : Interval).divF64 .debug (.fin (1 / 1000000000)) = .panic ∧
    (⟨5, 3, 9223372036854775807⟩ : Interval).divF64 .debug (.fin (1 / 100000)) = .ok ⟨500000, 300000, 9223372036854775807⟩ := by
  decide +kernel

end Props
