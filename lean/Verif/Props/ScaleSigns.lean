import Verif.Lemmas.ScaleNeg
import Verif.Props.Intervals
import Verif.Props.Scale

/-!
# Property C109: opposite factors and opposite intervals give opposite products and quotients
-/

namespace Pg
open F64

theorem in_range {x : F64} (h1 : Interval.outOfI32 x = false) (h2 : Interval.outOfI32 x.neg = false) :
    ∃ q : Rat, x = .fin q ∧ -2147483647 ≤ q ∧ q ≤ 2147483647 := by
  unfold Interval.outOfI32 at h1 h2
  rw [ofInt_ok (n := 2147483647) (by omega), ofInt_ok (n := -2147483648) (by omega)] at h1 h2
  cases x with
  | nan => cases h1
  | inf a => cases a <;> cases h1
  | fin q =>
    refine ⟨q, rfl, ?_⟩
    unfold F64.lt F64.isNan at h1 h2
    simp only [neg, Bool.or_eq_false_iff, decide_eq_false_iff_not, not_lt] at h1 h2
    obtain ⟨⟨-, a1⟩, a2⟩ := h1
    obtain ⟨⟨-, b1⟩, b2⟩ := h2
    push_cast at a1 a2 b1 b2
    constructor <;> linarith

theorem cast_range {q : Rat} (h1 : -2147483647 ≤ q) (h2 : q ≤ 2147483647) :
    (F64.fin q).toI32 = truncQ q ∧ (F64.fin q).neg.toI32 = -truncQ q ∧ -1 < q - truncQ q ∧ q - truncQ q < 1 ∧
      -2147483648 ≤ truncQ q ∧ truncQ q ≤ 2147483647 := by
  have hk : -2147483647 ≤ truncQ q ∧ truncQ q ≤ 2147483647 := by
    rcases truncQ_facts q with ⟨u, v, w, z⟩ | ⟨u, v, w, z⟩
    · have : (truncQ q : Rat) ≤ 2147483647 := by linarith
      have : truncQ q ≤ 2147483647 := by exact_mod_cast this
      omega
    · have : (-2147483647 : Rat) ≤ truncQ q := by linarith
      have : -2147483647 ≤ truncQ q := by exact_mod_cast this
      omega
  have hf : -1 < q - truncQ q ∧ q - truncQ q < 1 := by
    rcases truncQ_facts q with ⟨u, v, w, z⟩ | ⟨u, v, w, z⟩ <;> constructor <;> linarith
  refine ⟨?_, ?_, hf.1, hf.2, by omega, by omega⟩
  · unfold toI32 clamp
    simp only
    rw [if_neg (by omega), if_neg (by omega)]
  · unfold toI32 clamp
    simp only [neg]
    rw [truncQ_neg, if_neg (by omega), if_neg (by omega)]

end Pg

namespace Props
open Pg Spec

/-- **C109, the two signs.** The opposite interval times a number is the interval times the opposite number, and the same for
quotients: equal results, errors and panics, for all intervals with an opposite and all numbers. -/
theorem C109_signs (p : Profile) (a b : Interval) (f : F64) (h : a.negate = .ok b) :
    b.mulF64 p f = a.mulF64 p f.neg ∧ b.divF64 p f = a.divF64 p f.neg := by
  obtain ⟨-, -, -, hm, hd, ht⟩ := negate_eq_ok.1 h
  constructor
  · unfold Interval.mulF64
    rw [hm, hd, ht, F64.ofInt_neg, F64.ofInt_neg, F64.ofInt_neg]
    simp only [F64.neg_mul', F64.mul_neg']
  · unfold Interval.divF64
    by_cases h0 : f = .fin 0
    · subst h0
      rw [if_pos rfl, if_pos (by decide)]
    · have h1 : f.neg ≠ .fin 0 := fun e => h0 (by have := congrArg F64.neg e; rw [F64.neg_neg'] at this; rw [this]; decide)
      rw [if_neg h0, if_neg h1, hm, hd, ht, F64.ofInt_neg, F64.ofInt_neg, F64.ofInt_neg]
      simp only [F64.neg_div' _ h0, F64.div_neg' _ h0]

/-- Intervals and numbers with products and quotients. -/
example : (⟨13, -5, 3723000000⟩ : Interval).negate = .ok ⟨-13, 5, -3723000000⟩ ∧
    (⟨-13, 5, -3723000000⟩ : Interval).mulF64 .debug (.fin (5 / 2)) = .ok ⟨-32, -3, 33892500000⟩ ∧
    (⟨13, -5, 3723000000⟩ : Interval).mulF64 .debug (.fin (-5 / 2)) = .ok ⟨-32, -3, 33892500000⟩ := by
  decide +kernel

/-- **C109, products.** If an interval times a number and times the opposite number are both accepted, and the results are not at the
ends of the ranges, then the one is the other with the sign of every field changed. -/
theorem C109_product (p : Profile) (a r r' : Interval) (f : F64) (h : a.mulF64 p f = .ok r) (h' : a.mulF64 p f.neg = .ok r')
    (hd : r.day ≠ -2147483648) (ht : r.time ≠ -9223372036854775808) (ht' : r'.time ≠ -9223372036854775808) :
    r' = ⟨-r.month, -r.day, -r.time⟩ := by
  unfold Interval.mulF64 at h h'
  simp only [F64.mul_neg'] at h h'
  split at h
  · cases h
  rename_i m1
  split at h
  · cases h
  rename_i d1
  split at h'
  · cases h'
  rename_i m2
  split at h'
  · cases h'
  rename_i d2
  obtain ⟨m, em, m3, m4⟩ := in_range (Bool.not_eq_true _ ▸ m1) (Bool.not_eq_true _ ▸ m2)
  obtain ⟨d, ed, d3, d4⟩ := in_range (Bool.not_eq_true _ ▸ d1) (Bool.not_eq_true _ ▸ d2)
  obtain ⟨a1, a2, a3, a4, a5⟩ := cast_range m3 m4
  obtain ⟨b1, b2, b3, b4, b5⟩ := cast_range d3 d4
  rw [em, ed] at h h'
  rw [a1, b1] at h
  rw [a2, b2] at h'
  obtain ⟨⟨D, s⟩, c1, h⟩ := Res.bind_eq_ok.1 h
  obtain ⟨⟨D', s'⟩, c2, h'⟩ := Res.bind_eq_ok.1 h'
  obtain ⟨rfl, k1, k2, k3⟩ := Interval.cascade_neg a3 a4 b3 b4 a5 b5 c1 c2
  dsimp only at h h'
  rw [F64.neg_mul', F64.neg_add', F64.round_neg] at h'
  split at h
  · cases h
  split at h'
  · cases h'
  cases h
  cases h'
  dsimp only at hd ht ht' ⊢
  rw [F64.toI64_neg ht ht']
  unfold In32 at k1 k2
  rw [show D' = -D by omega]

/-- Both are accepted, and the results are not at the ends. -/
example (p : Profile) : (⟨1, 7, -1⟩ : Interval).mulF64 p (.fin (7 / 4)) = .ok ⟨1, 34, 64799999998⟩ ∧
    (⟨1, 7, -1⟩ : Interval).mulF64 p (F64.neg (.fin (7 / 4))) = .ok ⟨-1, -34, -64799999998⟩ := by
  cases p <;> decide +kernel

/-- **C109, products inside the ranges.** There both products exist. -/
theorem C109_product_inside (p : Profile) (a : Interval) (ha : a.WF) (q : Rat)
    (hm : |(a.month : Rat) * q| ≤ 2147483640) (hd : |(a.day : Rat) * q| ≤ 2147483600)
    (ht : |(a.time : Rat) * q| ≤ 4611686018427387904) :
    ∃ r : Interval, a.mulF64 p (.fin q) = .ok r ∧ a.mulF64 p (.fin (-q)) = .ok ⟨-r.month, -r.day, -r.time⟩ := by
  obtain ⟨r, h1, -, h2, h3⟩ := C47_mul_length_partial p a ha q hm hd ht
  obtain ⟨r', k1, -, k2, k3⟩ := C47_mul_length_partial p a ha (-q) (by rw [mul_neg, abs_neg]; exact hm) (by rw [mul_neg, abs_neg]; exact hd)
    (by rw [mul_neg, abs_neg]; exact ht)
  rw [abs_le] at h2 h3 k3
  refine ⟨r, h1, ?_⟩
  rw [← C109_product p a r r' (.fin q) h1 k1 (by omega) (by omega) (by omega)]
  exact k1

/-- **C109, quotients inside the ranges.** -/
theorem C109_quotient (p : Profile) (a : Interval) (ha : a.WF) (q : Rat) (hq : q ≠ 0)
    (hm : |(a.month : Rat) / q| ≤ 2147483640) (hd : |(a.day : Rat) / q| ≤ 2147483600)
    (ht : |(a.time : Rat) / q| ≤ 4611686018427387904) :
    ∃ r : Interval, a.divF64 p (.fin q) = .ok r ∧ a.divF64 p (.fin (-q)) = .ok ⟨-r.month, -r.day, -r.time⟩ := by
  rw [div_eq_mul_inv] at hm hd ht
  obtain ⟨r, h1, h2⟩ := C109_product_inside p a ha q⁻¹ hm hd ht
  refine ⟨r, div_of_mul hq ha h1, div_of_mul (neg_ne_zero.2 hq) ha ?_⟩
  rw [inv_neg]
  exact h2

example : (⟨13, -5, 3723000000⟩ : Interval).WF ∧ |((13 : Int) : Rat) / (-4)| ≤ 2147483640 ∧
    (⟨13, -5, 3723000000⟩ : Interval).divF64 .debug (.fin (-4)) = .ok ⟨-3, -6, -22530750000⟩ ∧
    (⟨13, -5, 3723000000⟩ : Interval).divF64 .debug (.fin 4) = .ok ⟨3, 6, 22530750000⟩ := by
  refine ⟨by decide, by norm_num, by decide +kernel, by decide +kernel⟩

/-- **C109, the ends of the ranges.** A product of `2^63` microseconds is cut off at `2^63 - 1` (`C47_mul_clamps`), its opposite is not;
a quotient too large for its field is cut off in one direction and, in release builds, wraps in the other. -/
theorem C109_ends :
    (⟨0, 0, 4611686018427387904⟩ : Interval).mulF64 .release (.fin 2) = .ok ⟨0, 0, 9223372036854775807⟩ ∧
    (⟨0, 0, 4611686018427387904⟩ : Interval).mulF64 .release (.fin (-2)) = .ok ⟨0, 0, -9223372036854775808⟩ ∧
    (⟨1, 0, 0⟩ : Interval).divF64 .release (F64.rnd (1 / 10 ^ 30)) = .ok ⟨2147483647, -2, 9223372036854775807⟩ ∧
    (⟨1, 0, 0⟩ : Interval).divF64 .release (F64.rnd (-1 / 10 ^ 30)) = .ok ⟨-2147483648, 0, -9223372036854775808⟩ := by
  decide +kernel

end Props
