import Verif.Lemmas.F64
import Verif.Model.Construct
import Verif.Model.DatePart

/-!
# Rounding of float seconds to microseconds
-/

namespace Pg
namespace F64

theorem pow2_m100 : (1 : Rat) / 2 ^ 100 = pow2 (-100) := by rw [pow2_eq, zpow_neg, one_div]; norm_cast

theorem pow2_m1075 : pow2 (-1075) ≤ pow2 (-100) := pow2_le_iff.2 (by norm_num)

/-- `rnd_bound` in numbers `linarith` can handle. -/
theorem rnd_near {q : Rat} (h : |q| ≤ 2 ^ 100) :
    ∃ r, rnd q = .fin r ∧ |r - q| ≤ |q| / 2 ^ 53 + 1 / 2 ^ 100 := by
  have h2 : (2 : Rat) ^ 100 ≤ pow2 1000 := by
    rw [show (2 : Rat) ^ 100 = pow2 100 by rw [pow2_eq]; norm_cast]
    exact pow2_le_iff.2 (by norm_num)
  obtain ⟨r, h1, h3⟩ := rnd_bound (le_trans h h2)
  refine ⟨r, h1, le_trans h3 ?_⟩
  have : pow2 (-1075) ≤ 1 / 2 ^ 100 := by
    rw [pow2_m100]; exact pow2_m1075
  exact add_le_add_right this _

theorem ofInt_usecs : F64.ofInt 1000000 = .fin 1000000 := by
  rw [ofInt_ok (by omega)]; norm_num

/-- A float within a quarter microsecond of `k` microseconds rounds to `k`. -/
theorem micro_round {s : Rat} {k : Int} (hk : -1000000000000000 ≤ k ∧ k ≤ 1000000000000000)
    (hs : |s - k / 1000000| ≤ 1 / 4000000) :
    ∃ t, (F64.fin s).mul (.fin 1000000) = .fin t ∧ roundAway t = k := by
  have k1 : (-1000000000000000 : Rat) ≤ k := by exact_mod_cast hk.1
  have k2 : (k : Rat) ≤ 1000000000000000 := by exact_mod_cast hk.2
  rw [abs_le] at hs
  have hb : |s * 1000000| ≤ 2 * 1000000000000000 := by
    rw [abs_le]; constructor <;> linarith
  obtain ⟨t, h1, h2⟩ := rnd_near (q := s * 1000000) (le_trans hb (by norm_num))
  refine ⟨t, h1, roundAway_near ?_⟩
  have hq : |s * 1000000| / 2 ^ 53 ≤ 2 * 1000000000000000 / 2 ^ 53 :=
    div_le_div_of_nonneg_right hb (by norm_num)
  have h3 := le_trans h2 (add_le_add_left hq _)
  norm_num at h3
  rw [abs_le] at h3
  rw [abs_lt]
  constructor <;> linarith

/-- The same for the whole expression `(s * 1e6).round() as i64`. -/
theorem secMicros_near {s : Rat} {k : Int} (hk : -1000000000000000 ≤ k ∧ k ≤ 1000000000000000)
    (hs : |s - k / 1000000| ≤ 1 / 4000000) : secMicros (.fin s) = k := by
  obtain ⟨t, h1, h2⟩ := micro_round hk hs
  unfold secMicros
  rw [ofInt_usecs, h1]
  unfold F64.round F64.toI64
  simp only [h2, truncQ_int]
  unfold F64.clamp
  rw [if_neg (by omega), if_neg (by omega)]

/-- The float nearest to `k` microseconds, in seconds, is within a quarter microsecond of it. -/
theorem nearest_micros {k : Int} (hk : -1000000000000000 ≤ k ∧ k ≤ 1000000000000000) :
    ∃ s, rnd ((k : Rat) / 1000000) = .fin s ∧ |s - k / 1000000| ≤ 1 / 4000000 := by
  have k1 : (-1000000000000000 : Rat) ≤ k := by exact_mod_cast hk.1
  have k2 : (k : Rat) ≤ 1000000000000000 := by exact_mod_cast hk.2
  have hb : |(k : Rat) / 1000000| ≤ 1000000000 := by
    rw [abs_le]; constructor <;> linarith
  obtain ⟨t, h1, h2⟩ := rnd_near (q := (k : Rat) / 1000000) (le_trans hb (by norm_num))
  refine ⟨t, h1, le_trans h2 ?_⟩
  have hq : |(k : Rat) / 1000000| / 2 ^ 53 ≤ 1000000000 / 2 ^ 53 :=
    div_le_div_of_nonneg_right hb (by norm_num)
  refine le_trans (add_le_add_left hq _) ?_
  norm_num

/-- The `Second` field is within a quarter microsecond of its exact value. -/
theorem partSecond_near {sec fs : Int} (h1 : -60 ≤ sec ∧ sec ≤ 60)
    (h2 : -1000000 ≤ fs ∧ fs ≤ 1000000) :
    ∃ s, partSecond sec fs = .fin s ∧ |s - ((sec * 1000000 + fs : Int) : Rat) / 1000000| ≤ 1 / 4000000 := by
  unfold partSecond
  rw [ofInt_ok (n := sec) (by omega), ofInt_ok (n := fs) (by omega)]
  have a1 : (-60 : Rat) ≤ sec := by exact_mod_cast h1.1
  have a2 : (sec : Rat) ≤ 60 := by exact_mod_cast h1.2
  have b1 : (-1000000 : Rat) ≤ fs := by exact_mod_cast h2.1
  have b2 : (fs : Rat) ≤ 1000000 := by exact_mod_cast h2.2
  have hb : |(fs : Rat) / 1000000| ≤ 1 := by rw [abs_le]; constructor <;> linarith
  obtain ⟨r, e1, e2⟩ := rnd_near (q := (fs : Rat) / 1000000) (le_trans hb (by norm_num))
  have hq : |(fs : Rat) / 1000000| / 2 ^ 53 ≤ 1 / 2 ^ 53 :=
    div_le_div_of_nonneg_right hb (by norm_num)
  have e3 := le_trans e2 (add_le_add_left hq _)
  norm_num at e3
  rw [abs_le] at e3 hb
  have hb2 : |(sec : Rat) + r| ≤ 62 := by rw [abs_le]; constructor <;> linarith
  obtain ⟨s, f1, f2⟩ := rnd_near (q := (sec : Rat) + r) (le_trans hb2 (by norm_num))
  have hq2 : |(sec : Rat) + r| / 2 ^ 53 ≤ 62 / 2 ^ 53 :=
    div_le_div_of_nonneg_right hb2 (by norm_num)
  have f3 := le_trans f2 (add_le_add_left hq2 _)
  norm_num at f3
  rw [abs_le] at f3
  refine ⟨s, ?_, ?_⟩
  · unfold F64.div
    simp only
    rw [if_neg (by norm_num), e1]
    exact f1
  · rw [abs_le]
    push_cast
    constructor <;> linarith

/-- The `MicroSec` field is exact. -/
theorem partMicros_eq {sec fs : Int} (h1 : -60 ≤ sec ∧ sec ≤ 60)
    (h2 : -1000000 ≤ fs ∧ fs ≤ 1000000) :
    partMicros sec fs = .fin ((sec * 1000000 + fs : Int) : Rat) := by
  unfold partMicros
  rw [ofInt_ok (n := sec) (by omega), ofInt_ok (n := fs) (by omega)]
  unfold F64.mul
  simp only
  have e1 : rnd ((sec : Rat) * 1000000) = .fin ((sec * 1000000 : Int) : Rat) := by
    have := ofInt_ok (n := sec * 1000000) (by omega)
    unfold ofInt at this
    rw [← this]; push_cast; rfl
  rw [e1]
  unfold F64.add
  simp only
  have := ofInt_ok (n := sec * 1000000 + fs) (by omega)
  unfold ofInt at this
  rw [← this]; push_cast; rfl

theorem le_roundEven {k : Int} {y : Rat} (h : (k : Rat) ≤ y) : k ≤ roundEven y := by
  have h1 : k ≤ y.floor := Int.le_floor.2 h
  unfold roundEven
  simp only
  split
  · exact h1
  · split
    · omega
    · split <;> omega

theorem roundEven_le {k : Int} {y : Rat} (h : y ≤ k) : roundEven y ≤ k := by
  rcases lt_or_eq_of_le h with h | h
  · have h1 : y.floor < k := Int.floor_lt.2 h
    unfold roundEven
    simp only
    split
    · omega
    · split
      · omega
      · split <;> omega
  · rw [h, roundEven_int]

theorem pow2_nat (j : Nat) : pow2 (j : Int) = 2 ^ j := by rw [pow2_eq]; norm_cast

/-- Rounding to binary64 does not pass below a positive integer up to `2^53`. -/
theorem rnd_ge {n : Int} {x : Rat} (hn : 0 < n ∧ n ≤ 2 ^ 52) (h : (n : Rat) ≤ x) :
    rnd x = .inf false ∨ ∃ r, rnd x = .fin r ∧ (n : Rat) ≤ r := by
  have hn0 : (0 : Rat) < n := by exact_mod_cast hn.1
  have hx : 0 < x := lt_of_lt_of_le hn0 h
  have hp := pow2_pos (ulpExp x)
  have hr : (n : Rat) ≤ (roundEven (x / pow2 (ulpExp x)) : Rat) * pow2 (ulpExp x) := by
    rcases Int.lt_or_le 0 (ulpExp x) with he | he
    · have h1 := (ilog_bounds hx.ne').1
      rw [abs_of_pos hx] at h1
      have h2 : ilog x = 52 + ulpExp x := by unfold ulpExp at he ⊢; omega
      rw [h2, pow2_add] at h1
      have h3 : ((2 ^ 52 : Int) : Rat) ≤ x / pow2 (ulpExp x) := by
        rw [le_div_iff₀ hp]
        rw [show pow2 52 = ((2 ^ 52 : Int) : Rat) by rw [pow2_eq]; norm_cast] at h1
        exact h1
      have h4 : ((2 ^ 52 : Int) : Rat) ≤ (roundEven (x / pow2 (ulpExp x)) : Rat) := by
        exact_mod_cast le_roundEven h3
      have h5 : (1 : Rat) ≤ pow2 (ulpExp x) := by
        rw [show (1 : Rat) = pow2 0 from rfl]; exact pow2_le_iff.2 he.le
      have h6 : (n : Rat) ≤ ((2 ^ 52 : Int) : Rat) := by exact_mod_cast hn.2
      have h7 : (0 : Rat) < ((2 ^ 52 : Int) : Rat) := by norm_num
      calc (n : Rat) ≤ ((2 ^ 52 : Int) : Rat) := h6
        _ ≤ _ := h4
        _ = (roundEven (x / pow2 (ulpExp x)) : Rat) * 1 := (mul_one _).symm
        _ ≤ _ := mul_le_mul_of_nonneg_left h5 (le_trans h7.le h4)
    · obtain ⟨j, hj⟩ : ∃ j : Nat, ulpExp x + j = 0 := ⟨(-(ulpExp x)).toNat, by omega⟩
      have e1 : pow2 (ulpExp x) * 2 ^ j = 1 := by
        rw [← pow2_nat, ← pow2_add, hj]; rfl
      have h3 : ((n * 2 ^ j : Int) : Rat) ≤ x / pow2 (ulpExp x) := by
        rw [le_div_iff₀ hp]
        push_cast
        calc (n : Rat) * 2 ^ j * pow2 (ulpExp x) = n * (pow2 (ulpExp x) * 2 ^ j) := by ring
          _ = n := by rw [e1, mul_one]
          _ ≤ x := h
      have h4 : ((n * 2 ^ j : Int) : Rat) ≤ (roundEven (x / pow2 (ulpExp x)) : Rat) := by
        exact_mod_cast le_roundEven h3
      calc (n : Rat) = ((n * 2 ^ j : Int) : Rat) * pow2 (ulpExp x) := by
            push_cast
            rw [mul_assoc, mul_comm (2 ^ j) _, e1, mul_one]
        _ ≤ _ := mul_le_mul_of_nonneg_right h4 hp.le
  unfold rnd
  rw [if_neg hx.ne']
  simp only
  split
  · left; rw [decide_eq_false (not_lt.2 hx.le)]
  · right; exact ⟨_, rfl, hr⟩

theorem roundEven_neg (x : Rat) : roundEven (-x) = -roundEven x := by
  have a1 := floor_le' x
  have a2 := lt_floor' x
  have b1 := floor_le' (-x)
  have b2 := lt_floor' (-x)
  have hs : ((-x).floor : Rat) + x.floor ≤ 0 := by linarith
  have hs2 : (-2 : Rat) < ((-x).floor : Rat) + x.floor := by linarith
  have i1 : (-x).floor + x.floor ≤ 0 := by exact_mod_cast hs
  have i2 : -2 < (-x).floor + x.floor := by exact_mod_cast hs2
  unfold roundEven
  simp only
  rcases (by omega : (-x).floor = -x.floor ∨ (-x).floor = -x.floor - 1) with e | e
  · have e' : ((-x).floor : Rat) = -x.floor := by rw [e]; push_cast; rfl
    rw [e'] at b1 b2 ⊢
    rw [if_pos (by linarith), if_pos (by linarith), e]
  · have e' : ((-x).floor : Rat) = -x.floor - 1 := by rw [e]; push_cast; rfl
    rw [e'] at b1 b2 ⊢
    by_cases h1 : x - x.floor < 1 / 2
    · rw [if_neg (by linarith), if_pos (by linarith), if_pos h1, e]; omega
    · by_cases h2 : 1 / 2 < x - x.floor
      · rw [if_pos (by linarith), if_neg h1, if_pos h2, e]; omega
      · rw [if_neg (by linarith), if_neg (by linarith), if_neg h1, if_neg h2, e]
        split <;> split <;> omega

theorem ilog_neg (x : Rat) : ilog (-x) = ilog x := by
  unfold ilog
  rw [Rat.num_neg_eq_neg_num, Int.natAbs_neg, Rat.den_neg_eq_den, absQ_eq, absQ_eq, abs_neg]

theorem rnd_neg (x : Rat) : rnd (-x) = neg (rnd x) := by
  by_cases h0 : x = 0
  · subst h0; decide +kernel
  · have hn : -x ≠ 0 := neg_ne_zero.2 h0
    have he : ulpExp (-x) = ulpExp x := by unfold ulpExp; rw [ilog_neg]
    unfold rnd
    rw [if_neg hn, if_neg h0]
    simp only [he, neg_div, roundEven_neg]
    push_cast
    rw [neg_mul, absQ_eq, absQ_eq, abs_neg]
    split
    · unfold neg
      simp only [F64.inf.injEq]
      rcases lt_or_gt_of_ne h0 with h | h
      · rw [decide_eq_true h, decide_eq_false (by linarith)]; rfl
      · rw [decide_eq_true (neg_lt_zero.2 h), decide_eq_false (not_lt.2 (le_of_lt h))]; rfl
    · rfl

/-- Mirror image of `rnd_ge`. -/
theorem rnd_le {n : Int} {x : Rat} (hn : 0 < n ∧ n ≤ 2 ^ 52) (h : x ≤ -(n : Rat)) :
    rnd x = .inf true ∨ ∃ r, rnd x = .fin r ∧ r ≤ -(n : Rat) := by
  have := rnd_neg (-x)
  rw [neg_neg] at this
  rw [this]
  rcases rnd_ge (x := -x) hn (by linarith) with h1 | ⟨r, h1, h2⟩
  · left; rw [h1]; rfl
  · right; rw [h1]; exact ⟨-r, rfl, by linarith⟩

end F64
end Pg
