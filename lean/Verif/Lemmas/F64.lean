import Verif.Model.F64
import Mathlib.Data.Rat.Floor
import Mathlib.Algebra.Order.Field.Power
import Mathlib.Tactic.Linarith
import Mathlib.Tactic.FieldSimp
import Mathlib.Tactic.NormNum
import Mathlib.Tactic.Positivity

/-!
# Facts about the binary64 model
-/

namespace Pg
namespace F64

theorem pow2_eq (e : Int) : pow2 e = (2 : Rat) ^ e := by
  cases e with
  | ofNat n => simp [pow2]
  | negSucc n =>
    change mkRat 1 (2 ^ (n + 1)) = _
    rw [zpow_negSucc, Rat.mkRat_eq_div]
    push_cast
    rw [one_div]

theorem absQ_eq (q : Rat) : absQ q = |q| := by
  unfold absQ
  split
  · rw [abs_of_neg ‹_›]
  · rw [abs_of_nonneg (not_lt.1 ‹_›)]

theorem floor_eq (q : Rat) : q.floor = ⌊q⌋ := rfl

theorem floor_le' (q : Rat) : ((q.floor : Int) : Rat) ≤ q := Int.floor_le q
theorem lt_floor' (q : Rat) : q < (q.floor : Int) + 1 := Int.lt_floor_add_one q

/-! ## Rounding to an integer -/

theorem roundEven_err (x : Rat) : |(roundEven x : Rat) - x| ≤ 1 / 2 := by
  have h1 := floor_le' x
  have h2 := lt_floor' x
  unfold roundEven
  simp only
  rw [abs_le]
  split
  · constructor <;> linarith
  · split
    · push_cast; constructor <;> linarith
    · split
      · constructor <;> linarith
      · push_cast; constructor <;> linarith

theorem roundEven_int (n : Int) : roundEven (n : Rat) = n := by
  have h : ((n : Rat)).floor = n := Rat.floor_intCast n
  unfold roundEven
  simp only [h, sub_self]
  rw [if_pos (by norm_num)]

theorem roundAway_err (x : Rat) : |(roundAway x : Rat) - x| ≤ 1 / 2 := by
  unfold roundAway
  rw [abs_le]
  split
  · have h1 := floor_le' (x + 1 / 2)
    have h2 := lt_floor' (x + 1 / 2)
    constructor <;> linarith
  · have h1 := floor_le' (-x + 1 / 2)
    have h2 := lt_floor' (-x + 1 / 2)
    push_cast
    constructor <;> linarith

/-- A rational within less than 1/2 of an integer rounds to it. -/
theorem roundAway_near {x : Rat} {n : Int} (h : |x - n| < 1 / 2) : roundAway x = n := by
  have h1 := roundAway_err x
  have h2 : |(roundAway x : Rat) - n| < 1 := by
    have := abs_add_le ((roundAway x : Rat) - x) (x - n)
    rw [show (roundAway x : Rat) - x + (x - n) = (roundAway x : Rat) - n by ring] at this
    linarith
  have h3 : |roundAway x - n| < 1 := by exact_mod_cast h2
  have := Int.abs_lt_one_iff.1 h3
  omega

theorem roundAway_int (n : Int) : roundAway (n : Rat) = n :=
  roundAway_near (by rw [sub_self, abs_zero]; norm_num)

theorem truncQ_int (n : Int) : truncQ (n : Rat) = n := by
  unfold truncQ
  split
  · exact Rat.floor_intCast n
  · rw [show (-(n : Rat)) = ((-n : Int) : Rat) by push_cast; rfl,
      show (((-n : Int) : Rat)).floor = -n from Rat.floor_intCast _]
    omega

/-! ## Binary exponents -/

theorem natLog2_bounds {n : Nat} (h : n ≠ 0) : 2 ^ n.log2 ≤ n ∧ n < 2 ^ (n.log2 + 1) :=
  ⟨Nat.log2_self_le h, Nat.lt_log2_self⟩

theorem ilog_bounds {q : Rat} (h : q ≠ 0) : pow2 (ilog q) ≤ |q| ∧ |q| < pow2 (ilog q + 1) := by
  have hn : q.num.natAbs ≠ 0 := by
    rw [Ne, Int.natAbs_eq_zero]; exact Rat.num_ne_zero.2 h
  obtain ⟨a1, a2⟩ := natLog2_bounds hn
  obtain ⟨b1, b2⟩ := natLog2_bounds q.den_nz
  have hq : |q| = (q.num.natAbs : Rat) / (q.den : Rat) := by
    conv_lhs => rw [← Rat.num_div_den q]
    rw [abs_div, Nat.abs_cast, ← Int.cast_abs, Int.abs_eq_natAbs]
    rfl
  have hd : (0 : Rat) < q.den := by exact_mod_cast q.den_pos
  have a1' : (2 : Rat) ^ q.num.natAbs.log2 ≤ q.num.natAbs := by exact_mod_cast a1
  have a2' : (q.num.natAbs : Rat) < (2 : Rat) ^ (q.num.natAbs.log2 + 1) := by exact_mod_cast a2
  have b1' : (2 : Rat) ^ q.den.log2 ≤ q.den := by exact_mod_cast b1
  have b2' : (q.den : Rat) < (2 : Rat) ^ (q.den.log2 + 1) := by exact_mod_cast b2
  obtain ⟨A, hA⟩ : ∃ A, A = q.num.natAbs.log2 := ⟨_, rfl⟩
  obtain ⟨B, hB⟩ : ∃ B, B = q.den.log2 := ⟨_, rfl⟩
  rw [← hA] at a1' a2'
  rw [← hB] at b1' b2'
  have up : |q| < pow2 ((A : Int) - B + 1) := by
    rw [hq, pow2_eq, div_lt_iff₀ hd]
    calc (q.num.natAbs : Rat) < 2 ^ (A + 1) := a2'
      _ = (2 : Rat) ^ ((A : Int) - B + 1) * 2 ^ B := by
        rw [← zpow_natCast, ← zpow_natCast, ← zpow_add₀ (by norm_num)]
        congr 1; push_cast; ring
      _ ≤ _ := by
        apply mul_le_mul_of_nonneg_left b1'
        positivity
  have lo : pow2 ((A : Int) - B - 1) < |q| := by
    rw [hq, pow2_eq, lt_div_iff₀ hd]
    calc (2 : Rat) ^ ((A : Int) - B - 1) * q.den < (2 : Rat) ^ ((A : Int) - B - 1) * 2 ^ (B + 1) := by
          apply mul_lt_mul_of_pos_left b2'
          positivity
      _ = 2 ^ A := by
        rw [← zpow_natCast, ← zpow_natCast, ← zpow_add₀ (by norm_num)]
        congr 1; push_cast; ring
      _ ≤ _ := a1'
  have key : ilog q = if pow2 ((A : Int) - B) ≤ |q| then (A : Int) - B else (A : Int) - B - 1 := by
    rw [← absQ_eq, hA, hB]
    rfl
  rw [key]
  split
  · exact ⟨‹_›, up⟩
  · refine ⟨lo.le, ?_⟩
    rw [sub_add_cancel]
    exact not_le.1 ‹_›

theorem pow2_pos (e : Int) : 0 < pow2 e := by rw [pow2_eq]; positivity

theorem pow2_add (a b : Int) : pow2 (a + b) = pow2 a * pow2 b := by
  rw [pow2_eq, pow2_eq, pow2_eq, zpow_add₀ (by norm_num)]

theorem pow2_lt_iff {a b : Int} : pow2 a < pow2 b ↔ a < b := by
  rw [pow2_eq, pow2_eq]
  exact zpow_lt_zpow_iff_right₀ (by norm_num)

theorem pow2_le_iff {a b : Int} : pow2 a ≤ pow2 b ↔ a ≤ b := by
  rw [pow2_eq, pow2_eq]
  exact zpow_le_zpow_iff_right₀ (by norm_num)

/-! ## Rounding to binary64 -/

theorem ulp_half (q : Rat) (h : q ≠ 0) : pow2 (ulpExp q) / 2 ≤ |q| / 2 ^ 53 + pow2 (-1075) := by
  have hp := pow2_pos (-1075)
  unfold ulpExp
  rcases le_total (ilog q - 52) (-1074) with hc | hc
  · rw [max_eq_right hc]
    have : pow2 (-1074) = pow2 (-1075) * 2 := by
      rw [show (-1074 : Int) = -1075 + 1 by norm_num, pow2_add]; rfl
    rw [this]
    have : 0 ≤ |q| / 2 ^ 53 := div_nonneg (abs_nonneg q) (by norm_num)
    linarith
  · rw [max_eq_left hc]
    have h1 := (ilog_bounds h).1
    have h2 : pow2 (ilog q) = pow2 (ilog q - 52) * 2 ^ 52 := by
      conv_lhs => rw [show ilog q = ilog q - 52 + 52 by ring]
      rw [pow2_add, show pow2 52 = 2 ^ 52 by rw [pow2_eq]; norm_cast]
    rw [h2] at h1
    have h3 : pow2 (ilog q - 52) / 2 ≤ |q| / 2 ^ 53 := by
      rw [div_le_div_iff₀ (by norm_num) (by norm_num)]
      rw [show (2 : Rat) ^ 53 = 2 ^ 52 * 2 by norm_num]
      linarith
    linarith

/-- Error of rounding to nearest: half a unit in the last place. -/
theorem rnd_bound {q : Rat} (h : |q| ≤ pow2 1000) :
    ∃ r, rnd q = .fin r ∧ |r - q| ≤ |q| / 2 ^ 53 + pow2 (-1075) := by
  by_cases h0 : q = 0
  · refine ⟨0, by rw [rnd, if_pos h0], ?_⟩
    rw [h0]
    have := pow2_pos (-1075)
    simp only [sub_self, abs_zero, zero_div, zero_add]
    exact this.le
  · have he := pow2_pos (ulpExp q)
    have hr := roundEven_err (q / pow2 (ulpExp q))
    have hb : |(roundEven (q / pow2 (ulpExp q)) : Rat) * pow2 (ulpExp q) - q| ≤
        pow2 (ulpExp q) / 2 := by
      have : (roundEven (q / pow2 (ulpExp q)) : Rat) * pow2 (ulpExp q) - q =
          ((roundEven (q / pow2 (ulpExp q)) : Rat) - q / pow2 (ulpExp q)) * pow2 (ulpExp q) := by
        field_simp
      rw [this, abs_mul, abs_of_pos he]
      have := mul_le_mul_of_nonneg_right hr he.le
      linarith
    have hb2 := le_trans hb (ulp_half q h0)
    refine ⟨_, ?_, hb2⟩
    have hlt : absQ ((roundEven (q / pow2 (ulpExp q)) : Rat) * pow2 (ulpExp q)) < pow2 1024 := by
      rw [absQ_eq]
      have h3 := abs_add_le ((roundEven (q / pow2 (ulpExp q)) : Rat) * pow2 (ulpExp q) - q) q
      rw [sub_add_cancel] at h3
      have h4 : |q| / 2 ^ 53 ≤ |q| := div_le_self (abs_nonneg q) (by norm_num)
      have h5 : pow2 (-1075) ≤ pow2 1000 := pow2_le_iff.2 (by norm_num)
      have h6 : pow2 1024 = pow2 1000 * 2 ^ 24 := by
        rw [show (1024 : Int) = 1000 + 24 by norm_num, pow2_add,
          show pow2 24 = 2 ^ 24 by rw [pow2_eq]; norm_cast]
      have h7 := pow2_pos 1000
      rw [h6]
      linarith
    unfold rnd
    rw [if_neg h0]
    simp only
    rw [if_neg (not_le.2 hlt)]

theorem rnd_zero : rnd 0 = .fin 0 := rfl

/-- Values with at most 53 significant bits are not changed. -/
theorem rnd_exact_lt {n k : Int} (hn : |n| < 2 ^ 53) (hk : -1074 ≤ k) (hk2 : k ≤ 900) :
    rnd ((n : Rat) * pow2 k) = .fin ((n : Rat) * pow2 k) := by
  by_cases h0 : n = 0
  · subst h0; simp [rnd_zero]
  · have hp := pow2_pos k
    have hn' : |(n : Rat)| < 2 ^ 53 := by exact_mod_cast hn
    have hq0 : (n : Rat) * pow2 k ≠ 0 := mul_ne_zero (by exact_mod_cast h0) hp.ne'
    have hq : |(n : Rat) * pow2 k| < pow2 (53 + k) := by
      rw [abs_mul, abs_of_pos hp, pow2_add, show pow2 53 = 2 ^ 53 by rw [pow2_eq]; norm_cast]
      exact mul_lt_mul_of_pos_right hn' hp
    have hl := lt_of_le_of_lt (ilog_bounds hq0).1 hq
    rw [pow2_lt_iff] at hl
    have he : ulpExp ((n : Rat) * pow2 k) ≤ k := by unfold ulpExp; omega
    generalize hE : ulpExp ((n : Rat) * pow2 k) = e at he
    have hpe := pow2_pos e
    obtain ⟨j, hj⟩ : ∃ j : Nat, k = e + j := ⟨(k - e).toNat, by omega⟩
    have hd : (n : Rat) * pow2 k / pow2 e = ((n * 2 ^ j : Int) : Rat) := by
      rw [hj, pow2_add, show pow2 (j : Int) = 2 ^ j by rw [pow2_eq]; norm_cast]
      push_cast
      field_simp
    have hr : (roundEven ((n : Rat) * pow2 k / pow2 e) : Rat) * pow2 e = (n : Rat) * pow2 k := by
      rw [hd, roundEven_int, ← hd]
      field_simp
    unfold rnd
    rw [if_neg hq0]
    simp only [hE, hr]
    rw [if_neg]
    rw [not_le, absQ_eq]
    exact lt_trans hq (pow2_lt_iff.2 (by omega))

/-- Integers up to `2^53` are exact. -/
theorem ofInt_exact {n : Int} (hn : |n| ≤ 2 ^ 53) : ofInt n = .fin (n : Rat) := by
  unfold ofInt
  rcases lt_or_eq_of_le hn with h | h
  · have := rnd_exact_lt (k := 0) h (by norm_num) (by norm_num)
    rwa [show pow2 0 = 1 from rfl, mul_one] at this
  · rcases (abs_eq (by norm_num)).1 h with h | h
    · have := rnd_exact_lt (n := 2 ^ 52) (k := 1) (by norm_num) (by norm_num) (by norm_num)
      rw [h]
      rw [show ((2 ^ 52 : Int) : Rat) * pow2 1 = ((2 ^ 53 : Int) : Rat) by
        rw [show pow2 1 = 2 from rfl]; norm_num] at this
      exact this
    · have := rnd_exact_lt (n := -2 ^ 52) (k := 1) (by norm_num) (by norm_num) (by norm_num)
      rw [h]
      rw [show ((-2 ^ 52 : Int) : Rat) * pow2 1 = ((-2 ^ 53 : Int) : Rat) by
        rw [show pow2 1 = 2 from rfl]; norm_num] at this
      exact this

theorem rnd_int {n : Int} (hn : |n| ≤ 2 ^ 53) : rnd (n : Rat) = .fin (n : Rat) := ofInt_exact hn

/-- `ofInt_exact` with bounds for `omega`. -/
theorem ofInt_ok {n : Int} (h : -9007199254740992 ≤ n ∧ n ≤ 9007199254740992) :
    ofInt n = .fin (n : Rat) :=
  ofInt_exact (by rw [abs_le]; norm_num; exact h)

theorem fin_int_inj {a b : Int} : (F64.fin (a : Rat) = .fin (b : Rat)) ↔ a = b := by
  rw [F64.fin.injEq]; exact Int.cast_inj

end F64
end Pg
