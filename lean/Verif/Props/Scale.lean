import Verif.Lemmas.Scale
import Verif.Spec.Interval
import Verif.Rust
import Mathlib.Tactic.Ring

/-!
# Property C47: intervals multiplied and divided by a factor
-/

namespace Props
open Pg Spec

theorem toI32_int {n : Int} (h : In32 n) : (F64.fin (n : Rat)).toI32 = n := by
  unfold In32 at h
  unfold F64.toI32
  simp only [F64.truncQ_int]
  unfold F64.clamp
  rw [if_neg (by omega), if_neg (by omega)]

theorem toI64_int {n : Int} (h : In64 n) : (F64.fin (n : Rat)).toI64 = n := by
  unfold In64 at h
  unfold F64.toI64
  simp only [F64.truncQ_int]
  unfold F64.clamp
  rw [if_neg (by omega), if_neg (by omega)]

theorem sub_self_fin (q : Rat) : (F64.fin q).sub (.fin q) = .fin 0 := by
  unfold F64.sub F64.neg F64.add
  simp only
  rw [add_neg_cancel]; rfl

theorem timestampRound_zero : Interval.timestampRound (.fin 0) = .fin 0 := by decide +kernel

/-- Without fractional months and days nothing cascades. -/
theorem cascade_int (p : Profile) {m d : Int} (hm : In32 m) (hd : In32 d) :
    Interval.cascade p (.fin m) (.fin d) m d = .ok (d, .fin 0) := by
  unfold In32 at hm hd
  unfold Interval.cascade
  rw [F64.ofInt_ok (n := m) (by omega), F64.ofInt_ok (n := d) (by omega), sub_self_fin, sub_self_fin]
  have e1 : (F64.fin 0).mul (F64.ofInt 30) = .fin 0 := by decide +kernel
  rw [e1]
  simp only [timestampRound_zero]
  have e2 : (F64.fin 0).toI32 = 0 := by decide +kernel
  have e3 : (((F64.fin 0).add (.fin 0)).sub (F64.ofInt 0)).mul (F64.ofInt 86400) = .fin 0 := by
    decide +kernel
  rw [e2, e3, timestampRound_zero]
  have e4 : Interval.carryDays p d (.fin 0) = .ok (d, .fin 0) := by
    unfold Interval.carryDays
    rw [if_neg (by decide +kernel)]
  rw [e4]
  simp only [Res.bind_ok]
  rw [chk32_ok (by omega), Int.add_zero]
  rfl

theorem outOfI32_int {n : Int} (h : In32 n) : Interval.outOfI32 (.fin n) = false := by
  unfold In32 at h
  unfold Interval.outOfI32
  rw [F64.ofInt_ok (n := 2147483647) (by omega), F64.ofInt_ok (n := -2147483648) (by omega)]
  unfold F64.lt F64.isNan
  simp only [Bool.or_eq_false_iff, decide_eq_false_iff_not]
  refine ⟨⟨trivial, ?_⟩, ?_⟩
  · rw [Int.cast_lt]; omega
  · rw [Int.cast_lt]; omega

theorem ofInt_mul {a b : Int} (ha : -9007199254740992 ≤ a ∧ a ≤ 9007199254740992)
    (hab : -9007199254740992 ≤ a * b ∧ a * b ≤ 9007199254740992) :
    (F64.ofInt a).mul (.fin b) = .fin ((a * b : Int) : Rat) := by
  rw [F64.ofInt_ok ha]
  unfold F64.mul
  simp only
  rw [show (a : Rat) * b = ((a * b : Int) : Rat) by push_cast; rfl]
  exact F64.ofInt_ok hab

theorem add_zero_int {a : Int} (ha : -9007199254740992 ≤ a ∧ a ≤ 9007199254740992) :
    (F64.fin (a : Rat)).add ((F64.fin 0).mul (F64.ofInt 1000000)) = .fin (a : Rat) := by
  rw [show (F64.fin 0).mul (F64.ofInt 1000000) = .fin 0 by decide +kernel]
  unfold F64.add
  simp only [_root_.add_zero]
  exact F64.ofInt_ok ha

/-- The range check on the microseconds passes for exactly representable values. -/
theorem in_i64_range {t : Int} (ht : -9007199254740992 ≤ t ∧ t ≤ 9007199254740992) :
    ((F64.ofInt 9223372036854775807).lt (.fin t) ||
      (F64.fin t).lt (F64.ofInt (-9223372036854775808))) = false := by
  have e1 : F64.ofInt 9223372036854775807 = .fin ((9223372036854775808 : Int) : Rat) := by decide +kernel
  have e2 : F64.ofInt (-9223372036854775808) = .fin ((-9223372036854775808 : Int) : Rat) := by decide +kernel
  rw [e1, e2]
  unfold F64.lt
  simp only [Bool.or_eq_false_iff, decide_eq_false_iff_not, Int.cast_lt]
  omega

/-- **C47 (integer factors).** Multiplying by an integer is component-wise multiplication whenever
months and days stay in 32 bits and the microseconds are exactly representable before and after. -/
theorem C47_mul_int (p : Profile) (a : Interval) (ha : a.WF) (n : Int)
    (hm : In32 (a.month * n)) (hd : In32 (a.day * n))
    (ht : -9007199254740992 ≤ a.time ∧ a.time ≤ 9007199254740992)
    (htn : -9007199254740992 ≤ a.time * n ∧ a.time * n ≤ 9007199254740992) :
    a.mulF64 p (.fin n) = .ok ⟨a.month * n, a.day * n, a.time * n⟩ := by
  obtain ⟨wm, wd, wt⟩ := ha
  have em : (F64.ofInt a.month).mul (.fin n) = .fin ((a.month * n : Int) : Rat) := by
    unfold In32 at wm hm; exact ofInt_mul (by omega) (by omega)
  have ed : (F64.ofInt a.day).mul (.fin n) = .fin ((a.day * n : Int) : Rat) := by
    unfold In32 at wd hd; exact ofInt_mul (by omega) (by omega)
  have et : (F64.ofInt a.time).mul (.fin n) = .fin ((a.time * n : Int) : Rat) := ofInt_mul ht htn
  unfold Interval.mulF64
  simp only
  rw [em, ed, et, outOfI32_int hm, outOfI32_int hd, toI32_int hm, toI32_int hd, cascade_int p hm hd]
  simp only [Bool.false_eq_true, if_false, Res.bind_ok]
  rw [add_zero_int htn]
  unfold F64.round
  simp only [F64.roundAway_int]
  rw [in_i64_range htn, toI64_int (by unfold In64; omega)]
  rfl

/-- **C47 (identity).** -/
theorem C47_mul_one (p : Profile) (a : Interval) (ha : a.WF)
    (ht : -9007199254740992 ≤ a.time ∧ a.time ≤ 9007199254740992) :
    a.mulF64 p (.fin 1) = .ok a := by
  have := C47_mul_int p a ha 1 (by rw [Int.mul_one]; exact ha.1) (by rw [Int.mul_one]; exact ha.2.1) ht
    (by omega)
  rw [Int.cast_one] at this
  rw [this]; simp

/-- **C47 (zero).** -/
theorem C47_mul_zero (p : Profile) (a : Interval) (ha : a.WF) :
    a.mulF64 p (.fin 0) = .ok ⟨0, 0, 0⟩ := by
  obtain ⟨wm, wd, wt⟩ := ha
  have key : ∀ x : Int, In64 x → (F64.ofInt x).mul (.fin 0) = .fin ((0 : Int) : Rat) := by
    intro x hx
    unfold In64 at hx
    have h1 : (-9223372036854775808 : Rat) ≤ x := by exact_mod_cast hx.1
    have h2 : (x : Rat) ≤ 9223372036854775807 := by exact_mod_cast hx.2
    have hb : |(x : Rat)| ≤ 2 ^ 100 := by
      rw [abs_le]
      have : (9223372036854775808 : Rat) ≤ 2 ^ 100 := by norm_num
      constructor <;> linarith
    obtain ⟨r, e, -⟩ := F64.rnd_near hb
    unfold F64.ofInt
    rw [e]
    unfold F64.mul
    simp only [mul_zero]
    rfl
  unfold In32 at wm wd
  unfold Interval.mulF64
  simp only
  have z : In32 0 := by decide
  rw [key _ (by unfold In64; omega), key _ (by unfold In64; omega), key _ wt, outOfI32_int z,
    toI32_int z, cascade_int p z z]
  simp only [Bool.false_eq_true, if_false, Res.bind_ok]
  rw [add_zero_int (by omega)]
  unfold F64.round
  simp only [F64.roundAway_int]
  rw [in_i64_range (by omega), toI64_int (by decide)]
  rfl

theorem div_int {a n : Int} (hn : n ≠ 0) (h : a % n = 0)
    (ha : -9007199254740992 ≤ a ∧ a ≤ 9007199254740992) :
    (F64.ofInt a).div (.fin n) = .fin ((a / n : Int) : Rat) := by
  have hn' : (n : Rat) ≠ 0 := by exact_mod_cast hn
  rw [F64.ofInt_ok ha]
  unfold F64.div
  simp only
  rw [if_neg hn']
  obtain ⟨k, rfl⟩ := Int.dvd_of_emod_eq_zero h
  rw [Int.mul_ediv_cancel_left _ hn]
  rw [show ((n * k : Int) : Rat) / n = (k : Rat) by push_cast; field_simp]
  apply F64.ofInt_exact
  have h1 : |n * k| ≤ 2 ^ 53 := by rw [abs_le]; norm_num; exact ha
  rw [abs_mul] at h1
  have h2 : 1 ≤ |n| := Int.one_le_abs hn
  have h3 : 0 ≤ |k| := abs_nonneg k
  nlinarith

/-- **C47 (division by an integer divisor).** -/
theorem C47_div_int (p : Profile) (a : Interval) (ha : a.WF) (n : Int) (hn : n ≠ 0)
    (hm : a.month % n = 0) (hd : a.day % n = 0) (ht : a.time % n = 0)
    (hmn : n = -1 → a.month ≠ -2147483648 ∧ a.day ≠ -2147483648)
    (hb : -9007199254740992 ≤ a.time ∧ a.time ≤ 9007199254740992) :
    a.divF64 p (.fin n) = .ok ⟨a.month / n, a.day / n, a.time / n⟩ := by
  obtain ⟨wm, wd, wt⟩ := ha
  unfold In32 at wm wd
  have bound : ∀ x k : Int, k ≠ 0 → x % k = 0 → |x / k| * |k| = |x| := by
    intro x k hk h
    obtain ⟨j, rfl⟩ := Int.dvd_of_emod_eq_zero h
    rw [Int.mul_ediv_cancel_left _ hk, abs_mul, mul_comm]
  have in32 : ∀ x : Int, -2147483648 ≤ x ∧ x ≤ 2147483647 → x % n = 0 → (n = -1 → x ≠ -2147483648) →
      In32 (x / n) := by
    intro x hx h hne
    have hk := bound x n hn h
    by_cases h1 : n = 1
    · subst h1; unfold In32; omega
    · by_cases h2 : n = -1
      · have := hne h2; subst h2; unfold In32; omega
      · have h3 : 2 ≤ |n| := by
          rcases abs_cases n with ⟨e, _⟩ | ⟨e, _⟩ <;> omega
        have h4 : |x| ≤ 2147483648 := by rw [abs_le]; omega
        have h5 : |x / n| ≤ 1073741824 := by nlinarith [abs_nonneg (x / n)]
        rw [abs_le] at h5
        unfold In32; omega
  have im := in32 a.month wm hm (fun h => (hmn h).1)
  have id := in32 a.day wd hd (fun h => (hmn h).2)
  have it : -9007199254740992 ≤ a.time / n ∧ a.time / n ≤ 9007199254740992 := by
    have hk := bound a.time n hn ht
    have h3 : 1 ≤ |n| := Int.one_le_abs hn
    have h4 : |a.time| ≤ 9007199254740992 := by rw [abs_le]; omega
    have h5 : |a.time / n| ≤ 9007199254740992 := by nlinarith [abs_nonneg (a.time / n)]
    rw [abs_le] at h5; exact h5
  unfold Interval.divF64
  rw [if_neg (by
    intro h; injection h with h; exact hn (by exact_mod_cast h))]
  simp only
  rw [div_int hn hm (by omega), div_int hn hd (by omega), div_int hn ht hb, toI32_int im, toI32_int id,
    cascade_int p im id]
  simp only [Res.bind_ok]
  rw [add_zero_int it]
  unfold F64.round
  simp only [F64.roundAway_int]
  rw [toI64_int (by unfold In64; omega)]

/-- **C47 (division by one).** -/
theorem C47_div_one (p : Profile) (a : Interval) (ha : a.WF)
    (ht : -9007199254740992 ≤ a.time ∧ a.time ≤ 9007199254740992) :
    a.divF64 p (.fin 1) = .ok a := by
  have := C47_div_int p a ha 1 (by decide) (by omega) (by omega) (by omega) (fun h => absurd h (by decide)) ht
  rw [Int.cast_one] at this
  rw [this]; simp

/-- **C47 (division by zero).** -/
theorem C47_div_zero (p : Profile) (a : Interval) : a.divF64 p (.fin 0) = .err .invalid := by
  unfold Interval.divF64
  rw [if_pos rfl]

/-- **C47 (multiplication by NaN or an infinity).** -/
theorem C47_mul_nonfinite (p : Profile) (a : Interval) (ha : a.WF) (f : F64) (hf : ∀ q, f ≠ .fin q) :
    a.mulF64 p f = .err .overflow := by
  obtain ⟨wm, -, -⟩ := ha
  unfold In32 at wm
  have : Interval.outOfI32 ((F64.ofInt a.month).mul f) = true := by
    rw [F64.ofInt_ok (by omega)]
    unfold Interval.outOfI32
    rw [F64.ofInt_ok (n := 2147483647) (by omega), F64.ofInt_ok (n := -2147483648) (by omega)]
    cases f with
    | nan => rfl
    | inf b =>
      unfold F64.mul
      simp only
      split
      · rfl
      · generalize (b != _) = c
        cases c <;> rfl
    | fin q => exact absurd rfl (hf q)
  unfold Interval.mulF64
  simp only
  rw [if_pos this]

/-- **C47 (overflow of months or days).** A product outside 32 bits by at least one unit is an
error. -/
theorem C47_mul_overflow (p : Profile) (a : Interval) (ha : a.WF) (q : Rat)
    (ho : (2147483648 ≤ a.month * q ∨ a.month * q ≤ -2147483649) ∨
      (2147483648 ≤ a.day * q ∨ a.day * q ≤ -2147483649)) :
    a.mulF64 p (.fin q) = .err .overflow := by
  obtain ⟨wm, wd, -⟩ := ha
  unfold In32 at wm wd
  have key : ∀ x : Rat, (2147483648 ≤ x ∨ x ≤ -2147483649) → Interval.outOfI32 (F64.rnd x) = true := by
    intro x hx
    unfold Interval.outOfI32
    rw [F64.ofInt_ok (n := 2147483647) (by omega), F64.ofInt_ok (n := -2147483648) (by omega)]
    rcases hx with hx | hx
    · rcases F64.rnd_ge (n := 2147483648) (by norm_num) (by exact_mod_cast hx) with h | ⟨r, h, hr⟩
      · rw [h]; rfl
      · rw [h]
        unfold F64.lt F64.isNan
        simp only [Bool.or_eq_true, decide_eq_true_eq]
        left; right
        have : ((2147483648 : Int) : Rat) ≤ r := hr
        push_cast at this ⊢
        linarith
    · rcases F64.rnd_le (n := 2147483649) (by norm_num) (by push_cast; linarith) with h | ⟨r, h, hr⟩
      · rw [h]; rfl
      · rw [h]
        unfold F64.lt F64.isNan
        simp only [Bool.or_eq_true, decide_eq_true_eq]
        right
        have : r ≤ -((2147483649 : Int) : Rat) := hr
        push_cast at this ⊢
        linarith
  unfold Interval.mulF64
  simp only
  rw [F64.ofInt_ok (n := a.month) (by omega), F64.ofInt_ok (n := a.day) (by omega)]
  unfold F64.mul
  simp only
  rcases ho with ho | ho
  · rw [if_pos (key _ ho)]
  · rw [if_pos (key _ ho)]
    split <;> rfl

/-- A product below 32 bits passes the range check, and its integer part is at most one away. -/
theorem scaled_part {n : Int} {q B : Rat} (hn : In32 n) (hB : B ≤ 2147483640) (h1 : -B ≤ n * q)
    (h2 : n * q ≤ B) :
    ∃ r : Rat, (F64.ofInt n).mul (.fin q) = .fin r ∧ Interval.outOfI32 (.fin r) = false ∧
      (F64.fin r).toI32 = F64.truncQ r ∧ -1 < r - F64.truncQ r ∧ r - F64.truncQ r < 1 ∧
      |r - n * q| ≤ |n * q| / 2 ^ 53 + 1 / 2 ^ 100 ∧
      -B - 1 ≤ F64.truncQ r ∧ F64.truncQ r ≤ B + 1 := by
  unfold In32 at hn
  have hb : |(n : Rat) * q| ≤ 2147483640 := abs_le.2 ⟨by linarith, by linarith⟩
  obtain ⟨r, e, hr⟩ := F64.rnd_near (q := n * q) (le_trans hb (by norm_num))
  have hd : |(n : Rat) * q| / 2 ^ 53 ≤ 2147483640 / 2 ^ 53 := div_le_div_of_nonneg_right hb (by norm_num)
  have hr' : |r - n * q| ≤ 1 := by
    refine le_trans hr (le_trans (add_le_add_left hd _) ?_)
    norm_num
  rw [abs_le] at hr'
  have ht := F64.truncQ_facts r
  have hkk : -B - 1 ≤ F64.truncQ r ∧ F64.truncQ r ≤ B + 1 := by
    rcases ht with ⟨u, v, w, z⟩ | ⟨u, v, w, z⟩
    · have : (0 : Rat) ≤ F64.truncQ r := by exact_mod_cast v
      constructor <;> linarith
    · have : (F64.truncQ r : Rat) ≤ 0 := by exact_mod_cast v
      constructor <;> linarith
  have k1 : -2147483648 ≤ F64.truncQ r := by
    have : (-2147483648 : Rat) ≤ F64.truncQ r := by linarith
    exact_mod_cast this
  have k2 : F64.truncQ r ≤ 2147483647 := by
    have : (F64.truncQ r : Rat) ≤ 2147483647 := by linarith
    exact_mod_cast this
  refine ⟨r, ?_, ?_, ?_, ?_, ?_, hr, hkk.1, hkk.2⟩
  · rw [F64.ofInt_ok (by omega)]
    unfold F64.mul
    simp only
    exact e
  · unfold Interval.outOfI32
    rw [F64.ofInt_ok (n := 2147483647) (by omega), F64.ofInt_ok (n := -2147483648) (by omega)]
    unfold F64.lt F64.isNan
    simp only [Bool.or_eq_false_iff, decide_eq_false_iff_not, not_lt]
    refine ⟨⟨trivial, ?_⟩, ?_⟩ <;> push_cast <;> linarith
  · unfold F64.toI32
    simp only
    unfold F64.clamp
    rw [if_neg (by omega), if_neg (by omega)]
  · rcases ht with ⟨u, v, w, z⟩ | ⟨u, v, w, z⟩ <;> linarith
  · rcases ht with ⟨u, v, w, z⟩ | ⟨u, v, w, z⟩ <;> linarith

/-- The microseconds times the factor, in floats. -/
theorem scaled_time {n : Int} {q : Rat} (hn : In64 n) (h : |(n : Rat) * q| ≤ 4611686018427387904) :
    ∃ r : Rat, (F64.ofInt n).mul (.fin q) = .fin r ∧
      |r - n * q| ≤ |(n : Rat) * q| / 2 ^ 51 + 1 / 2 ^ 100 := by
  by_cases h0 : n = 0
  · subst h0
    refine ⟨0, ?_, ?_⟩
    · rw [F64.ofInt_ok (by omega)]
      unfold F64.mul
      simp only [Int.cast_zero, zero_mul]
      rfl
    · simp
  · unfold In64 at hn
    have n1 : (-9223372036854775808 : Rat) ≤ n := by exact_mod_cast hn.1
    have n2 : (n : Rat) ≤ 9223372036854775807 := by exact_mod_cast hn.2
    have hnb : |(n : Rat)| ≤ 9223372036854775808 := abs_le.2 ⟨by linarith, by linarith⟩
    obtain ⟨a, e1, ha⟩ := F64.rnd_near (q := (n : Rat)) (le_trans hnb (by norm_num))
    have hone : (1 : Rat) ≤ |(n : Rat)| := by
      have : 1 ≤ |n| := Int.one_le_abs h0
      exact_mod_cast this
    have ha' : |a - n| ≤ |(n : Rat)| / 2 ^ 52 := by
      refine le_trans ha ?_
      have : (1 : Rat) / 2 ^ 100 ≤ |(n : Rat)| / 2 ^ 53 := by
        rw [div_le_div_iff₀ (by norm_num) (by norm_num)]
        have : (2 : Rat) ^ 100 = 2 ^ 53 * 2 ^ 47 := by norm_num
        rw [this]
        nlinarith
      have e : |(n : Rat)| / 2 ^ 52 = |(n : Rat)| / 2 ^ 53 + |(n : Rat)| / 2 ^ 53 := by ring
      linarith
    have haq : |a * q - n * q| ≤ |(n : Rat) * q| / 2 ^ 52 := by
      rw [← sub_mul, abs_mul, abs_mul]
      have := mul_le_mul_of_nonneg_right ha' (abs_nonneg q)
      calc |a - n| * |q| ≤ |(n : Rat)| / 2 ^ 52 * |q| := this
        _ = |(n : Rat)| * |q| / 2 ^ 52 := by ring
    have hsz : |a * q| ≤ |(n : Rat) * q| + |(n : Rat) * q| / 2 ^ 52 := by
      have := abs_add_le (a * q - n * q) (n * q)
      rw [sub_add_cancel] at this
      linarith
    have hsz2 : |a * q| ≤ 2 ^ 100 := by
      refine le_trans hsz ?_
      have : |(n : Rat) * q| / 2 ^ 52 ≤ 4611686018427387904 := by
        refine le_trans (div_le_self (abs_nonneg _) (by norm_num)) h
      have : (4611686018427387904 : Rat) + 4611686018427387904 ≤ 2 ^ 100 := by norm_num
      linarith
    obtain ⟨r, e2, hr⟩ := F64.rnd_near hsz2
    refine ⟨r, ?_, ?_⟩
    · unfold F64.ofInt
      rw [e1]
      unfold F64.mul
      simp only
      exact e2
    · have h3 := abs_add_le (r - a * q) (a * q - n * q)
      rw [show r - a * q + (a * q - n * q) = r - n * q by ring] at h3
      generalize hx : |(n : Rat) * q| = x at *
      have hx0 : 0 ≤ x := by rw [← hx]; exact abs_nonneg _
      have h4 : |a * q| / 2 ^ 53 ≤ (x + x / 2 ^ 52) / 2 ^ 53 := div_le_div_of_nonneg_right hsz (by norm_num)
      have h5 : (x + x / 2 ^ 52) / 2 ^ 53 ≤ x / 2 ^ 52 := by
        rw [div_le_div_iff₀ (by norm_num) (by norm_num)]
        have : x / 2 ^ 52 ≤ x := div_le_self hx0 (by norm_num)
        have e : x * 2 ^ 53 = (x + x) * 2 ^ 52 := by ring
        rw [e]
        exact mul_le_mul_of_nonneg_right (by linarith) (by norm_num)
      have e : x / 2 ^ 51 = x / 2 ^ 52 + x / 2 ^ 52 := by ring
      linarith

/-- Error of the microsecond sum. -/
theorem time_err {x t s u w k : Rat} (ert : |t - x| ≤ |x| / 2 ^ 51 + 1 / 2 ^ 100)
    (hs1 : -87000 ≤ s) (hs2 : s ≤ 87000) (u1 : s * 1000000 - 1 / 1000 ≤ u) (u2 : u ≤ s * 1000000 + 1 / 1000)
    (w1 : |w - (t + u)| ≤ |t + u| / 2 ^ 53 + 1 / 2 ^ 100) (hr : |k - w| ≤ 1 / 2) :
    |k - (x + s * 1000000)| ≤ |x| / 2 ^ 50 + 1 := by
  have e1 := abs_add_le (t - x) x
  rw [sub_add_cancel] at e1
  have e2 := abs_add_le t u
  have e3 : |u| ≤ 88000000000 := abs_le.2 ⟨by linarith, by linarith⟩
  have hx0 : 0 ≤ |x| := abs_nonneg _
  generalize |x| = X at *
  have h5 : X / 2 ^ 51 ≤ X := div_le_self hx0 (by norm_num)
  have htu : |t + u| ≤ X * 2 + 90000000000 := by
    have : (1 : Rat) / 2 ^ 100 ≤ 1 := by norm_num
    linarith
  have w2 : |t + u| / 2 ^ 53 ≤ (X * 2 + 90000000000) / 2 ^ 53 := div_le_div_of_nonneg_right htu (by norm_num)
  have w3 : |w - (t + u)| ≤ X / 2 ^ 52 + 1 / 1000 := by
    have : (X * 2 + 90000000000) / 2 ^ 53 + 1 / 2 ^ 100 ≤ X / 2 ^ 52 + 1 / 1000 := by
      have e : (X * 2 + 90000000000) / 2 ^ 53 = X / 2 ^ 52 + 90000000000 / 2 ^ 53 := by ring
      rw [e]
      have : (90000000000 : Rat) / 2 ^ 53 + 1 / 2 ^ 100 ≤ 1 / 1000 := by norm_num
      linarith
    linarith
  have t3 : |t - x| ≤ X / 2 ^ 51 + 1 / 1000 := by
    have : (1 : Rat) / 2 ^ 100 ≤ 1 / 1000 := by norm_num
    linarith
  have e : X / 2 ^ 50 = X / 2 ^ 51 + X / 2 ^ 52 + X / 2 ^ 52 := by ring
  have hp : 0 ≤ X / 2 ^ 52 := div_nonneg hx0 (by norm_num)
  rw [e]
  generalize X / 2 ^ 51 = A at *
  generalize X / 2 ^ 52 = B at *
  clear e1 e2 e3 h5 htu w2 w1 ert
  rw [abs_le] at *
  constructor <;> linarith

/-- Error of the total length. -/
theorem span_err {M D X m d rm K s T : Rat} (erm : |m - M| ≤ |M| / 2 ^ 53 + 1 / 2 ^ 100)
    (erd : |d - D| ≤ |D| / 2 ^ 53 + 1 / 2 ^ 100)
    (c1 : -433 / 10000 ≤ K * 86400 + s - (30 * (m - rm) + d) * 86400)
    (c2 : K * 86400 + s - (30 * (m - rm) + d) * 86400 ≤ 433 / 10000)
    (hT : |T - (X + s * 1000000)| ≤ |X| / 2 ^ 50 + 1) :
    |(rm * 30 + K) * 86400000000 + T - ((M * 30 + D) * 86400000000 + X)| ≤
      43400 + (|M| * 2592000000000 + |D| * 86400000000 + |X|) / 2 ^ 50 := by
  have hM : 0 ≤ |M| := abs_nonneg _
  have hD : 0 ≤ |D| := abs_nonneg _
  generalize |M| = M' at *
  generalize |D| = D' at *
  have e : (M' * 2592000000000 + D' * 86400000000 + |X|) / 2 ^ 50 =
      M' / 2 ^ 50 * 2592000000000 + D' / 2 ^ 50 * 86400000000 + |X| / 2 ^ 50 := by ring
  rw [e]
  have eM : M' / 2 ^ 53 ≤ M' / 2 ^ 50 := div_le_div_of_nonneg_left hM (by norm_num) (by norm_num)
  have eD : D' / 2 ^ 53 ≤ D' / 2 ^ 50 := div_le_div_of_nonneg_left hD (by norm_num) (by norm_num)
  have tiny : (1 : Rat) / 2 ^ 100 ≤ 1 / 10 ^ 15 := by norm_num
  have erm' : |m - M| ≤ M' / 2 ^ 50 + 1 / 10 ^ 15 := by linarith
  have erd' : |d - D| ≤ D' / 2 ^ 50 + 1 / 10 ^ 15 := by linarith
  clear erm erd eM eD tiny e
  generalize M' / 2 ^ 50 = a at *
  generalize D' / 2 ^ 50 = b at *
  generalize |X| / 2 ^ 50 = c at *
  norm_num at erm' erd'
  rw [abs_le] at *
  constructor <;> linarith

/-- **C47 (any factor), partial.** When months, days and microseconds times the factor stay a little
inside their ranges, the product is an interval whose length (30-day months) is the factor times the
length of the interval, up to 0.0434 seconds (days are rounded to a millionth) and a relative error
of `2^-50`; days and microseconds of the product stay inside their ranges. There is no panic. Missing: days
within 48 of the 32-bit limits, where the debug build can panic (`C47_mul_panics`), and products of
more than `2^62` microseconds. -/
theorem C47_mul_length_partial (p : Profile) (a : Interval) (ha : a.WF) (q : Rat)
    (hm : |(a.month : Rat) * q| ≤ 2147483640) (hd : |(a.day : Rat) * q| ≤ 2147483600)
    (ht : |(a.time : Rat) * q| ≤ 4611686018427387904) :
    ∃ r, a.mulF64 p (.fin q) = .ok r ∧
      |((spanMicros r.month r.day r.time : Int) : Rat) - spanMicros a.month a.day a.time * q| ≤
        43400 + (|(a.month : Rat) * q| * 2592000000000 + |(a.day : Rat) * q| * 86400000000 +
          |(a.time : Rat) * q|) / 2 ^ 50 ∧
      |r.day| ≤ 2147483640 ∧ |r.time| ≤ 4611686108427387904 := by
  obtain ⟨wm, wd, wt⟩ := ha
  have hm' := abs_le.1 hm
  have hd' := abs_le.1 hd
  obtain ⟨m, em, om, tm, fm1, fm2, erm, bm1, bm2⟩ := scaled_part wm (B := 2147483640) le_rfl hm'.1 hm'.2
  obtain ⟨d, ed, od, td, fd1, fd2, erd, bd1, bd2⟩ := scaled_part wd (B := 2147483600) (by norm_num) hd'.1 hd'.2
  obtain ⟨t, et, ert⟩ := scaled_time wt ht
  have im : -2147483648 ≤ F64.truncQ m ∧ F64.truncQ m ≤ 2147483647 := by
    constructor
    · have : (-2147483648 : Rat) ≤ F64.truncQ m := by linarith
      exact_mod_cast this
    · have : (F64.truncQ m : Rat) ≤ 2147483647 := by linarith
      exact_mod_cast this
  have idd : -2147483601 ≤ F64.truncQ d ∧ F64.truncQ d ≤ 2147483601 := by
    constructor
    · have : (-2147483601 : Rat) ≤ F64.truncQ d := by linarith
      exact_mod_cast this
    · have : (F64.truncQ d : Rat) ≤ 2147483601 := by linarith
      exact_mod_cast this
  obtain ⟨k1, k2, s, k11, k12, k21, k22, hc, c1, c2, s1, s2⟩ := F64.cascade_spec p (F64.truncQ m)
    (F64.truncQ d) fm1 fm2 fd1 fd2 im (by omega)
  have hcas := hc (by unfold In32; omega) (by unfold In32; omega)
  obtain ⟨u, u0, u1, u2⟩ := F64.rnd_step (q := s * 1000000) (B := 87000000000) (by linarith) (by linarith)
    (by norm_num)
  have hu : (87000000000 : Rat) / 2 ^ 53 + 1 / 2 ^ 100 ≤ 1 / 1000 := by norm_num
  have htu : |t + u| ≤ 2 ^ 100 := by
    have e1 := abs_add_le (t - a.time * q) (a.time * q)
    rw [sub_add_cancel] at e1
    have e2 := abs_add_le t u
    have e3 : |u| ≤ 88000000000 := abs_le.2 ⟨by linarith, by linarith⟩
    have e4 : |(a.time : Rat) * q| / 2 ^ 51 ≤ |(a.time : Rat) * q| := div_le_self (abs_nonneg _) (by norm_num)
    have e5 : (1 : Rat) / 2 ^ 100 + 4611686018427387904 * 2 + 88000000000 ≤ 2 ^ 100 := by norm_num
    generalize |(a.time : Rat) * q| = X at *
    generalize X / 2 ^ 51 = Y at *
    clear hc hcas c1 c2 u0 u1 u2 hu erm erd fm1 fm2 fd1 fd2 bm1 bm2 bd1 bd2 hm hd hm' hd'
    linarith
  obtain ⟨w, w0, w1⟩ := F64.rnd_near htu
  have hr := F64.roundAway_err w
  have hsum := time_err ert s1 s2 (by linarith) (by linarith) w1 hr
  have hw2 : |(F64.roundAway w : Rat)| ≤ 4611686108427387904 := by
    have h5 : |(a.time : Rat) * q| / 2 ^ 50 ≤ 4611686018427387904 / 2 ^ 50 :=
      div_le_div_of_nonneg_right ht (by norm_num)
    have h6 : (4611686018427387904 : Rat) / 2 ^ 50 ≤ 5000 := by norm_num
    have ht' := abs_le.1 ht
    have hsum' := abs_le.1 hsum
    clear hsum hc hcas c1 c2 u0 u1 u2 hu erm erd fm1 fm2 fd1 fd2 bm1 bm2 bd1 bd2 hm hd hm' hd' htu w1 hr ert
    have h7 := le_trans h5 h6
    clear h5 h6 ht
    generalize |(a.time : Rat) * q| / 2 ^ 50 = Y at *
    generalize (a.time : Rat) * q = x at *
    rw [abs_le]
    constructor <;> linarith [hsum'.1, hsum'.2, ht'.1, ht'.2]
  rw [abs_le] at hw2
  have iw : -4611686108427387904 ≤ F64.roundAway w ∧ F64.roundAway w ≤ 4611686108427387904 := by
    constructor
    · exact_mod_cast hw2.1
    · exact_mod_cast hw2.2
  refine ⟨⟨F64.truncQ m, F64.truncQ d + k2 + k1, F64.roundAway w⟩, ?_, ?_, abs_le.2 ⟨by dsimp only; omega, by dsimp only; omega⟩, abs_le.2 iw⟩
  · unfold Interval.mulF64
    simp only
    rw [em, ed, et, om, od, tm, td, hcas]
    simp only [Bool.false_eq_true, if_false, Res.bind_ok]
    have eu : (F64.fin s).mul (F64.ofInt 1000000) = .fin u := by
      rw [F64.ofInt_usecs]
      unfold F64.mul
      simp only
      exact u0
    have ew : (F64.fin t).add (.fin u) = .fin w := by
      unfold F64.add
      simp only
      exact w0
    rw [eu, ew]
    unfold F64.round
    simp only
    have e1 : F64.ofInt 9223372036854775807 = .fin ((9223372036854775808 : Int) : Rat) := by decide +kernel
    have e2 : F64.ofInt (-9223372036854775808) = .fin ((-9223372036854775808 : Int) : Rat) := by decide +kernel
    rw [e1, e2, if_neg (by
      unfold F64.lt
      simp only [Bool.or_eq_true, decide_eq_true_eq, Int.cast_lt]
      omega), toI64_int (by unfold In64; omega)]
  · have := span_err erm erd c1 c2 hsum
    unfold spanMicros dayMicros
    push_cast
    rw [show (((a.month : Rat) * 30 + a.day) * 86400000000 + a.time) * q =
      (a.month * q * 30 + a.day * q) * 86400000000 + a.time * q by ring]
    exact this

example : (⟨13, -5, 3723000000⟩ : Interval).WF ∧ |((13 : Int) : Rat) * (5 / 2)| ≤ 2147483640 ∧
    (⟨13, -5, 3723000000⟩ : Interval).mulF64 .debug (.fin (5 / 2)) = .ok ⟨32, 3, -33892500000⟩ := by
  refine ⟨by decide, by norm_num, by decide +kernel⟩

/-- Division is multiplication with the inverse, without the range checks. -/
theorem div_of_mul {p : Profile} {a r : Interval} {q : Rat} (hq : q ≠ 0) (ha : a.WF) (h : a.mulF64 p (.fin q⁻¹) = .ok r) :
    a.divF64 p (.fin q) = .ok r := by
  have key : ∀ n : Int, (∃ x, F64.ofInt n = .fin x) → (F64.ofInt n).div (.fin q) = (F64.ofInt n).mul (.fin q⁻¹) := by
    rintro n ⟨x, e⟩
    rw [e]
    unfold F64.div F64.mul
    simp only
    rw [if_neg hq, div_eq_mul_inv]
  have fin : ∀ n : Int, In64 n → ∃ x, F64.ofInt n = .fin x := by
    intro n hn
    unfold In64 at hn
    have n1 : (-9223372036854775808 : Rat) ≤ n := by exact_mod_cast hn.1
    have n2 : (n : Rat) ≤ 9223372036854775807 := by exact_mod_cast hn.2
    obtain ⟨x, e, -⟩ := F64.rnd_near (q := (n : Rat))
      (le_trans (abs_le.2 ⟨by linarith, by linarith⟩ : |(n : Rat)| ≤ 9223372036854775808) (by norm_num))
    exact ⟨x, e⟩
  obtain ⟨wm, wd, wt⟩ := ha
  unfold In32 at wm wd
  unfold Interval.divF64
  rw [if_neg (by simpa using hq), key _ (fin _ (by unfold In64; omega)), key _ (fin _ (by unfold In64; omega)), key _ (fin _ wt)]
  unfold Interval.mulF64 at h
  simp only at h ⊢
  split at h
  · cases h
  · split at h
    · cases h
    · obtain ⟨⟨day, sec⟩, h1, h⟩ := Res.bind_eq_ok.1 h
      rw [h1, Res.bind_ok]
      simp only at h
      split at h
      · cases h
      · exact h

/-- **C47 (any divisor), partial.** When months, days and microseconds divided by the divisor stay a little inside their ranges,
the quotient is an interval whose length (30-day months) is the length of the interval divided by the divisor, with the error
bounds of `C47_mul_length_partial`. Missing: quotients beyond these ranges, which the code does not check (`C47_div_violated`). -/
theorem C47_div_length_partial (p : Profile) (a : Interval) (ha : a.WF) (q : Rat) (hq : q ≠ 0)
    (hm : |(a.month : Rat) / q| ≤ 2147483640) (hd : |(a.day : Rat) / q| ≤ 2147483600)
    (ht : |(a.time : Rat) / q| ≤ 4611686018427387904) :
    ∃ r, a.divF64 p (.fin q) = .ok r ∧
      |((spanMicros r.month r.day r.time : Int) : Rat) - spanMicros a.month a.day a.time / q| ≤
        43400 + (|(a.month : Rat) / q| * 2592000000000 + |(a.day : Rat) / q| * 86400000000 +
          |(a.time : Rat) / q|) / 2 ^ 50 := by
  rw [div_eq_mul_inv] at hm hd ht
  obtain ⟨r, h1, h2, -, -⟩ := C47_mul_length_partial p a ha q⁻¹ hm hd ht
  refine ⟨r, div_of_mul hq ha h1, ?_⟩
  rw [div_eq_mul_inv, div_eq_mul_inv (a.month : Rat), div_eq_mul_inv (a.day : Rat), div_eq_mul_inv (a.time : Rat)]
  exact h2

example : (⟨13, -5, 3723000000⟩ : Interval).WF ∧ |((13 : Int) : Rat) / (-4)| ≤ 2147483640 ∧
    (⟨13, -5, 3723000000⟩ : Interval).divF64 .debug (.fin (-4)) = .ok ⟨-3, -6, -22530750000⟩ := by
  refine ⟨by decide, ?_, by decide +kernel⟩
  norm_num

/-- **C47 (release builds).** Multiplication and division never panic. -/
theorem C47_release_no_panic (a : Interval) (f : F64) :
    (a.mulF64 .release f).NoPanic ∧ (a.divF64 .release f).NoPanic := by
  have chk : ∀ x, ∃ y, chk32 .release x = .ok y := by
    intro x; unfold chk32; split
    · exact ⟨_, rfl⟩
    · exact ⟨_, rfl⟩
  have car : ∀ d s, ∃ y, Interval.carryDays .release d s = .ok y := by
    intro d s
    unfold Interval.carryDays
    split
    · obtain ⟨x, hx⟩ := chk (d + (s.div (F64.ofInt 86400)).toI32)
      obtain ⟨y, hy⟩ := chk ((s.div (F64.ofInt 86400)).toI32 * 86400)
      simp only [hx, hy, Res.bind_ok]
      exact ⟨_, rfl⟩
    · exact ⟨_, rfl⟩
  have cas : ∀ m d rm rd, ∃ y, Interval.cascade .release m d rm rd = .ok y := by
    intro m d rm rd
    unfold Interval.cascade
    simp only
    obtain ⟨y, hy⟩ := car rd (Interval.timestampRound ((((d.sub (F64.ofInt rd)).add
      (Interval.timestampRound ((m.sub (F64.ofInt rm)).mul (F64.ofInt 30)))).sub (F64.ofInt
      (Interval.timestampRound ((m.sub (F64.ofInt rm)).mul (F64.ofInt 30))).toI32)).mul (F64.ofInt 86400)))
    rw [hy]
    simp only [Res.bind_ok]
    obtain ⟨x, hx⟩ := chk (y.1 + (Interval.timestampRound ((m.sub (F64.ofInt rm)).mul (F64.ofInt 30))).toI32)
    rw [hx]
    exact ⟨_, rfl⟩
  constructor
  · unfold Interval.mulF64
    simp only
    split
    · simp
    · split
      · simp
      · obtain ⟨y, hy⟩ := cas ((F64.ofInt a.month).mul f) ((F64.ofInt a.day).mul f)
          ((F64.ofInt a.month).mul f).toI32 ((F64.ofInt a.day).mul f).toI32
        rw [hy]
        simp only [Res.bind_ok]
        split <;> simp
  · unfold Interval.divF64
    split
    · simp
    · simp only
      obtain ⟨y, hy⟩ := cas ((F64.ofInt a.month).div f) ((F64.ofInt a.day).div f)
        ((F64.ofInt a.month).div f).toI32 ((F64.ofInt a.day).div f).toI32
      rw [hy]
      simp

/-- **C47, violation.** The day carried from the months can overflow 32 bits: a panic in debug
builds, a wrapped result in release builds. -/
theorem C47_mul_panics :
    (⟨1, 1431655764, 0⟩ : Interval).mulF64 .debug (.fin (3 / 2)) = .panic ∧
    (⟨1, 1431655764, 0⟩ : Interval).mulF64 .release (.fin (3 / 2)) = .ok ⟨1, -2147483635, 0⟩ := by
  decide +kernel

/-- **C47, violation.** A product of exactly `2^63` microseconds is not rejected but clamped. -/
theorem C47_mul_clamps (p : Profile) :
    (⟨0, 0, 4611686018427387904⟩ : Interval).mulF64 p (.fin 2) = .ok ⟨0, 0, 9223372036854775807⟩ := by
  cases p <;> decide +kernel

/-- **C47, violation.** Division has no range check: NaN gives the zero interval, a small divisor
clamps or wraps the fields and panics in debug builds. -/
theorem C47_div_violated (p : Profile) (a : Interval) (ha : a.WF) :
    a.divF64 p .nan = .ok ⟨0, 0, 0⟩ ∧
    (⟨0, 1, 0⟩ : Interval).divF64 .debug (F64.rnd (1 / 10 ^ 30)) = .panic ∧
    (⟨1, 0, 0⟩ : Interval).divF64 .release (F64.rnd (1 / 10 ^ 30)) = .ok ⟨2147483647, -2, 9223372036854775807⟩ := by
  refine ⟨?_, by decide +kernel, by decide +kernel⟩
  have key : ∀ x : Int, In64 x → (F64.ofInt x).div .nan = .nan := by
    intro x _
    generalize F64.ofInt x = y
    cases y <;> rfl
  obtain ⟨wm, wd, wt⟩ := ha
  unfold In32 at wm wd
  unfold Interval.divF64
  rw [if_neg (by decide)]
  simp only
  rw [key _ (by unfold In64; omega), key _ (by unfold In64; omega), key _ wt]
  have : Interval.cascade p .nan .nan (F64.toI32 .nan) (F64.toI32 .nan) = .ok (0, .nan) := by
    cases p <;> decide +kernel
  rw [this]
  rfl

end Props
