import Verif.Lemmas.F64Parts
import Verif.Lemmas.Number
import Verif.Lemmas.Quantities
import Verif.Spec.Fractions

/-! # Fractions of interval units in floating point -/

namespace Pg
open Spec F64

variable {p : Profile}

theorem truncQ_err (y : Rat) : |(truncQ y : Rat) - y| < 1 := by
  unfold truncQ
  split
  · have h1 := floor_le' y
    have h2 := lt_floor' y
    rw [abs_lt]; constructor <;> linarith
  · have h1 := floor_le' (-y)
    have h2 := lt_floor' (-y)
    push_cast
    rw [abs_lt]; constructor <;> linarith

theorem truncQ_neg (y : Rat) : truncQ (-y) = -truncQ y := by
  unfold truncQ
  rcases lt_trichotomy y 0 with h | h | h
  · rw [if_pos (by linarith), if_neg (by linarith)]; simp
  · subst h; decide +kernel
  · rw [if_neg (by linarith), if_pos (by linarith)]; simp

/-- The integer part of a number near one that is not an integer. -/
theorem truncQ_between {y : Rat} {n : Int} (h1 : (n : Rat) ≤ y) (h2 : y < n + 1) (h0 : 0 ≤ n) : truncQ y = n := by
  have : (0 : Rat) ≤ n := by exact_mod_cast h0
  unfold truncQ
  rw [if_pos (by linarith)]
  exact Int.floor_eq_iff.2 ⟨h1, h2⟩

theorem toI32_fin {y : Rat} (h : |y| ≤ 2000000000) : (F64.fin y).toI32 = truncQ y := by
  have h1 := truncQ_err y
  rw [abs_lt] at h1
  rw [abs_le] at h
  have a : (-2147483648 : Rat) < truncQ y := by linarith
  have b : (truncQ y : Rat) < 2147483647 := by linarith
  have a' : -2147483648 < truncQ y := by exact_mod_cast a
  have b' : truncQ y < 2147483647 := by exact_mod_cast b
  unfold F64.toI32 F64.clamp
  simp only
  rw [if_neg (by omega), if_neg (by omega)]

/-- `round` and `as i64`. -/
theorem round_i64 {y : Rat} (h : |y| ≤ 1000000000000000) : ((F64.fin y).round).toI64 = roundAway y := by
  have h1 := roundAway_err y
  rw [abs_le] at h1 h
  have a : (-9223372036854775808 : Rat) < roundAway y := by linarith
  have b : (roundAway y : Rat) < 9223372036854775807 := by linarith
  have a' : -9223372036854775808 < roundAway y := by exact_mod_cast a
  have b' : roundAway y < 9223372036854775807 := by exact_mod_cast b
  unfold F64.round F64.toI64 F64.clamp
  simp only [truncQ_int]
  rw [if_neg (by omega), if_neg (by omega)]

/-- Seconds to microseconds. -/
theorem roundMicros_near {x : Rat} (h : |x| ≤ 2) :
    |(roundMicros (.fin x) : Rat) - x * 1000000| ≤ 1 / 2 + 1 / 1000000000 := by
  unfold roundMicros
  rw [fin_mul]
  have hb : |x * 1000000| ≤ 2000000 := by
    rw [abs_le] at h ⊢; constructor <;> linarith
  obtain ⟨r, hr, he⟩ := rnd_within hb (by norm_num)
  norm_num at he
  rw [hr, round_i64 (by rw [abs_le] at hb he ⊢; constructor <;> linarith)]
  have := roundAway_err r
  rw [abs_le] at this he ⊢
  constructor <;> linarith

/-- A fraction of a longer unit, in seconds and microseconds. -/
theorem adjustFractSeconds_near {x : Rat} {scale E : Int} (hx : |x| ≤ 2) (hs : 0 < scale ∧ scale ≤ 86400)
    (hE : |x * scale * 1000000 - E| ≤ 1 / 1000) {t : TmF} (h1 : -2147000000 ≤ t.1.sec ∧ t.1.sec ≤ 2147000000)
    (h2 : -4000000000000000000 ≤ t.2 ∧ t.2 ≤ 4000000000000000000) :
    ∃ a b, adjustFractSeconds p (.fin x) scale t = (.ok (), ({ t.1 with sec := t.1.sec + a }, t.2 + b)) ∧
      a * 1000000 + b = E ∧ -200000 ≤ a ∧ a ≤ 200000 ∧ -2000000 ≤ b ∧ b ≤ 2000000 := by
  unfold adjustFractSeconds
  by_cases h0 : x = 0
  · subst h0
    rw [if_pos rfl]
    have : E = 0 := by
      rw [abs_le] at hE
      have a : ((-1 : Int) : Rat) < E := by push_cast; linarith
      have b : (E : Rat) < (1 : Int) := by push_cast; linarith
      have a' : -1 < E := by exact_mod_cast a
      have b' : E < 1 := by exact_mod_cast b
      omega
    refine ⟨0, 0, ?_, by omega, by omega, by omega, by omega, by omega⟩
    simp
    rfl
  · rw [if_neg (by simpa using h0)]
    have s1 : (0 : Rat) < scale := by exact_mod_cast hs.1
    have s2 : (scale : Rat) ≤ 86400 := by exact_mod_cast hs.2
    have hb : |x * scale| ≤ 172800 := by
      rw [abs_mul, abs_of_pos s1]
      calc |x| * scale ≤ 2 * 86400 := by
            apply mul_le_mul hx s2 s1.le (by norm_num)
        _ = 172800 := by norm_num
    obtain ⟨y, hy, he⟩ := rnd_within hb (by norm_num)
    norm_num at he
    have hyb : |y| ≤ 172801 := by rw [abs_le] at hb he ⊢; constructor <;> linarith
    have hmul : (F64.fin x).mul (F64.ofInt scale) = .fin y := by
      rw [F64.ofInt_ok (by omega), fin_mul, hy]
    have hi : (F64.fin y).toI32 = truncQ y := toI32_fin (le_trans hyb (by norm_num))
    obtain ⟨a, ha⟩ : ∃ a, a = truncQ y := ⟨_, rfl⟩
    have ht := truncQ_err y
    rw [← ha] at ht hi
    have a1 : -200000 < a ∧ a < 200000 := by
      rw [abs_lt] at ht
      rw [abs_le] at hyb
      have u : ((-200000 : Int) : Rat) < a := by push_cast; linarith
      have v : (a : Rat) < (200000 : Int) := by push_cast; linarith
      exact ⟨by exact_mod_cast u, by exact_mod_cast v⟩
    have hd : |y + -(a : Rat)| ≤ 1 := by
      rw [abs_lt] at ht
      rw [abs_le]; constructor <;> linarith
    obtain ⟨r, hr, hre⟩ := rnd_within hd (by norm_num)
    norm_num at hre
    have hsub : (F64.fin y).sub (F64.ofInt a) = .fin r := by
      rw [F64.ofInt_ok (by omega)]
      exact hr
    have hm := roundMicros_near (x := r) (by rw [abs_le] at hd hre ⊢; constructor <;> linarith)
    obtain ⟨b, hb'⟩ : ∃ b, b = roundMicros (.fin r) := ⟨_, rfl⟩
    rw [← hb'] at hm
    have hsum : a * 1000000 + b = E := by
      rw [abs_le] at hm hre he hE
      have u : ((a * 1000000 + b - E : Int) : Rat) < (1 : Int) := by push_cast; linarith
      have v : ((-1 : Int) : Rat) < ((a * 1000000 + b - E : Int) : Rat) := by push_cast; linarith
      have u' : a * 1000000 + b - E < 1 := by exact_mod_cast u
      have v' : -1 < a * 1000000 + b - E := by exact_mod_cast v
      omega
    have b1 : -2000000 < b ∧ b < 2000000 := by
      rw [abs_le] at hm hre hd
      have u : ((-2000000 : Int) : Rat) < b := by push_cast; linarith
      have v : (b : Rat) < (2000000 : Int) := by push_cast; linarith
      exact ⟨by exact_mod_cast u, by exact_mod_cast v⟩
    refine ⟨a, b, ?_, hsum, by omega, by omega, by omega, by omega⟩
    simp only [hmul, hi, hsub, ← hb']
    rw [St.get_bind, checked32, if_pos (by unfold In32; omega)]
    simp only
    rw [St.mod_bind, chk64_ok (show In64 (t.2 + b) by unfold In64; omega), St.lift_ok_bind]
    rfl

/-- The whole part of a fraction of weeks or months, and the rest. -/
theorem adjustFractDays_near {x : Rat} {scale n E : Int} (hx : |x| ≤ 1) (hs : 0 < scale ∧ scale ≤ 30)
    {y : Rat} (hy : rnd (x * scale) = .fin y) (hn : truncQ y = n)
    (hE : |(x * scale - n) * 86400000000 - E| ≤ 1 / 2000) {t : TmF} (h1 : -2147000000 ≤ t.1.sec ∧ t.1.sec ≤ 2147000000)
    (h2 : -4000000000000000000 ≤ t.2 ∧ t.2 ≤ 4000000000000000000)
    (h3 : -2147000000 ≤ t.1.mday ∧ t.1.mday ≤ 2147000000) (h0 : x = 0 → n = 0) :
    ∃ a b, adjustFractDays p (.fin x) scale t =
        (.ok (), ({ t.1 with mday := t.1.mday + n, sec := t.1.sec + a }, t.2 + b)) ∧
      a * 1000000 + b = E ∧ -200000 ≤ a ∧ a ≤ 200000 ∧ -2000000 ≤ b ∧ b ≤ 2000000 := by
  unfold adjustFractDays
  by_cases h0' : x = 0
  · have hn0 := h0 h0'
    subst h0'
    subst hn0
    rw [if_pos rfl]
    have : E = 0 := by
      rw [abs_le] at hE
      have a : ((-1 : Int) : Rat) < E := by push_cast at hE ⊢; linarith
      have b : (E : Rat) < (1 : Int) := by push_cast at hE ⊢; linarith
      have a' : -1 < E := by exact_mod_cast a
      have b' : E < 1 := by exact_mod_cast b
      omega
    refine ⟨0, 0, ?_, by omega, by omega, by omega, by omega, by omega⟩
    simp
    rfl
  · rw [if_neg (by simpa using h0')]
    have s1 : (0 : Rat) < scale := by exact_mod_cast hs.1
    have s2 : (scale : Rat) ≤ 30 := by exact_mod_cast hs.2
    have hb : |x * scale| ≤ 30 := by
      rw [abs_mul, abs_of_pos s1]
      calc |x| * scale ≤ 1 * 30 := by
            apply mul_le_mul hx s2 s1.le (by norm_num)
        _ = 30 := by norm_num
    obtain ⟨y', hy', he⟩ := rnd_within hb (by norm_num)
    norm_num at he
    rw [hy] at hy'
    cases hy'
    have hyb : |y| ≤ 31 := by rw [abs_le] at hb he ⊢; constructor <;> linarith
    have hmul : (F64.fin x).mul (F64.ofInt scale) = .fin y := by
      rw [F64.ofInt_ok (by omega), fin_mul, hy]
    have hi : (F64.fin y).toI32 = truncQ y := toI32_fin (le_trans hyb (by norm_num))
    have ht := truncQ_err y
    rw [hn] at ht hi
    have a1 : -40 < n ∧ n < 40 := by
      rw [abs_lt] at ht
      rw [abs_le] at hyb
      have u : ((-40 : Int) : Rat) < n := by push_cast; linarith
      have v : (n : Rat) < (40 : Int) := by push_cast; linarith
      exact ⟨by exact_mod_cast u, by exact_mod_cast v⟩
    have hd : |y + -(n : Rat)| ≤ 1 := by
      rw [abs_lt] at ht
      rw [abs_le]; constructor <;> linarith
    obtain ⟨r, hr, hre⟩ := rnd_within hd (by norm_num)
    norm_num at hre
    have hsub : (F64.fin y).sub (F64.ofInt n) = .fin r := by
      rw [F64.ofInt_ok (by omega)]
      exact hr
    obtain ⟨a, b, hab, r1, r2, r3, r4, r5⟩ := adjustFractSeconds_near (p := p) (x := r) (scale := 86400) (E := E)
      (by rw [abs_le] at hd hre ⊢; constructor <;> linarith) (by omega)
      (by
        push_cast
        rw [abs_le] at hre he hE ⊢
        constructor <;> linarith) (t := ({ t.1 with mday := t.1.mday + n }, t.2)) h1 h2
    refine ⟨a, b, ?_, r1, r2, r3, r4, r5⟩
    simp only [hmul, hi, hsub]
    rw [St.get_bind, checked32, if_pos (by unfold In32; omega)]
    simp only
    rw [St.mod_bind]
    exact hab

theorem rnd_sg {sg : Int} (hs : sg = 1 ∨ sg = -1) {q r : Rat} (h : rnd q = .fin r) : rnd (sg * q) = .fin (sg * r) := by
  rcases hs with rfl | rfl
  · simpa using h
  · have := rnd_neg q
    rw [h] at this
    simpa [F64.neg] using this

/-- The float of a fraction in ten-millionths. -/
theorem frac_float {k : Int} (h : 0 < k ∧ k < 10000000) :
    ∃ r : Rat, rnd ((k : Rat) / 10000000) = .fin r ∧ |r - k / 10000000| ≤ 12 / 100000000000000000 ∧ 0 < r ∧ r ≤ 1 := by
  have h1 : (1 : Rat) ≤ k := by exact_mod_cast h.1
  have h2 : (k : Rat) ≤ 9999999 := by have : k ≤ 9999999 := by omega
                                      exact_mod_cast this
  obtain ⟨r, hr, he⟩ := rnd_within (q := (k : Rat) / 10000000) (b := 1) (by
    rw [abs_le]; constructor <;> linarith) (by norm_num)
  norm_num at he
  have he' : |r - k / 10000000| ≤ 12 / 100000000000000000 := by
    rw [abs_le] at he ⊢; constructor <;> linarith
  refine ⟨r, hr, he', ?_, ?_⟩ <;> rw [abs_le] at he' <;> linarith

/-- The integer part of a product that is not whole. -/
theorem trunc_apart {y : Rat} {a : Int} (ha : 0 ≤ a) (hy : |y - a / 10000000| ≤ 1 / 100000000) (hm : a % 10000000 ≠ 0) :
    truncQ y = a / 10000000 := by
  have e := Int.emod_add_mul_ediv a 10000000
  have hp := Int.emod_nonneg a (show (10000000 : Int) ≠ 0 by omega)
  have hl := Int.emod_lt_of_pos a (show (0 : Int) < 10000000 by omega)
  obtain ⟨m, hm'⟩ : ∃ m, m = a % 10000000 := ⟨_, rfl⟩
  obtain ⟨n, hn'⟩ : ∃ n, n = a / 10000000 := ⟨_, rfl⟩
  rw [← hm', ← hn'] at e
  rw [← hm'] at hp hl hm
  rw [← hn']
  have c1 : (1 : Rat) ≤ m := by exact_mod_cast (show 1 ≤ m by omega)
  have c2 : (m : Rat) ≤ 9999999 := by exact_mod_cast (show m ≤ 9999999 by omega)
  have e' : (a : Rat) = m + 10000000 * n := by exact_mod_cast e.symm
  rw [e', abs_le] at hy
  refine truncQ_between ?_ ?_ (by omega)
  · linarith [hy.1]
  · linarith [hy.2]

/-- The integer part of a product near a whole number. -/
theorem trunc_near {y : Rat} {a : Int} (ha : 0 < a) (hy : |y - a / 10000000| ≤ 1 / 100000000) :
    truncQ y = a / 10000000 ∨ a % 10000000 = 0 ∧ truncQ y = a / 10000000 - 1 := by
  by_cases hm : a % 10000000 = 0
  swap
  · exact Or.inl (trunc_apart (by omega) hy hm)
  obtain ⟨n, hn⟩ : ∃ n, a = 10000000 * n := ⟨a / 10000000, by omega⟩
  subst hn
  rw [Int.mul_ediv_cancel_left _ (by omega)]
  push_cast at hy
  rw [show (10000000 * (n : Rat)) / 10000000 = n by ring] at hy
  rw [abs_le] at hy
  by_cases h : (n : Rat) ≤ y
  · exact Or.inl (truncQ_between h (by linarith) (by omega))
  · refine Or.inr ⟨by omega, truncQ_between ?_ ?_ (by omega)⟩
    · push_cast; linarith
    · push_cast; linarith

/-- Fractions of months with a whole number of days. -/
theorem thirty_exact : ∀ j : Fin 10, ∃ r, rnd (((j.val * 1000000 : Int) : Rat) / 10000000) = .fin r ∧
    rnd (r * 30) = .fin ((j.val * 3 : Int) : Rat) := by
  have key : ∀ j : Fin 10, (match rnd (((j.val * 1000000 : Int) : Rat) / 10000000) with
    | .fin r => decide (rnd (r * 30) = .fin ((j.val * 3 : Int) : Rat))
    | _ => false) = true := by decide +kernel
  intro j
  have := key j
  cases h : rnd (((j.val * 1000000 : Int) : Rat) / 10000000) with
  | fin r => rw [h] at this; exact ⟨r, rfl, by simpa using this⟩
  | nan => rw [h] at this; simp at this
  | inf b => rw [h] at this; simp at this

/-- Quarters of years. -/
theorem twelve_exact : ∀ j : Fin 4, ∃ r, rnd (((j.val * 2500000 : Int) : Rat) / 10000000) = .fin r ∧
    rnd (r * 12) = .fin ((j.val * 3 : Int) : Rat) := by
  have key : ∀ j : Fin 4, (match rnd (((j.val * 2500000 : Int) : Rat) / 10000000) with
    | .fin r => decide (rnd (r * 12) = .fin ((j.val * 3 : Int) : Rat))
    | _ => false) = true := by decide +kernel
  intro j
  have := key j
  cases h : rnd (((j.val * 2500000 : Int) : Rat) / 10000000) with
  | fin r => rw [h] at this; exact ⟨r, rfl, by simpa using this⟩
  | nan => rw [h] at this; simp at this
  | inf b => rw [h] at this; simp at this

/-- A product with a small factor. -/
theorem scaled_near {k c : Int} {r : Rat}
    (he : |r - k / 10000000| ≤ 12 / 100000000000000000) (hr : 0 < r ∧ r ≤ 1) (hc : 0 < c ∧ c ≤ 30) :
    ∃ y, rnd (r * c) = .fin y ∧ |y - ((k * c : Int) : Rat) / 10000000| ≤ 1 / 10000000000000 ∧ |y| ≤ 31 := by
  have c1 : (1 : Rat) ≤ c := by exact_mod_cast hc.1
  have c2 : (c : Rat) ≤ 30 := by exact_mod_cast hc.2
  have hb : |r * c| ≤ 30 := by
    rw [abs_of_nonneg (by nlinarith [hr.1])]
    nlinarith [hr.1, hr.2]
  obtain ⟨y, hy, hye⟩ := rnd_within hb (by norm_num)
  norm_num at hye
  have hd : |r * c - ((k * c : Int) : Rat) / 10000000| ≤ 12 / 100000000000000000 * 30 := by
    rw [show r * c - ((k * c : Int) : Rat) / 10000000 = (r - k / 10000000) * c by push_cast; ring, abs_mul,
      abs_of_pos (show (0 : Rat) < c by linarith)]
    exact mul_le_mul he c2 (by linarith) (by norm_num)
  refine ⟨y, hy, ?_, ?_⟩
  · rw [abs_le] at hye hd ⊢; constructor <;> linarith
  · rw [abs_le] at hye hb ⊢; constructor <;> linarith

theorem whole_days {k : Int} (hk : 0 < k ∧ k < 10000000) (hm : k * 30 % 10000000 = 0) :
    ∃ j : Nat, j < 10 ∧ k = j * 1000000 := by
  have hq : 0 + 10000000 * (k * 30 / 10000000) = k * 30 := by
    have := Int.emod_add_mul_ediv (k * 30) 10000000
    rw [hm] at this
    exact this
  generalize k * 30 / 10000000 = q at hq
  clear hm
  have h3 : k * 3 = 1000000 * q := by linarith
  obtain ⟨j, hj⟩ : ∃ j, j = k - 333333 * q := ⟨_, rfl⟩
  have hkj : k = 1000000 * j := by linarith
  have j0 : 0 < j := by linarith [hk.1]
  have j1 : j < 10 := by linarith [hk.2]
  have e : (j.toNat : Int) = j := Int.toNat_of_nonneg (by linarith)
  clear hj h3 hq hk
  have hjj : j.toNat < 10 := by omega
  refine ⟨j.toNat, hjj, ?_⟩
  rw [e, hkj]
  exact Int.mul_comm _ _

theorem whole_months {k : Int} (hk : 0 < k ∧ k < 10000000) (hm : k * 12 % 10000000 = 0) :
    ∃ j : Nat, j < 4 ∧ k = j * 2500000 := by
  have hq : 0 + 10000000 * (k * 12 / 10000000) = k * 12 := by
    have := Int.emod_add_mul_ediv (k * 12) 10000000
    rw [hm] at this
    exact this
  generalize k * 12 / 10000000 = q at hq
  clear hm
  have h3 : k * 3 = 2500000 * q := by linarith
  obtain ⟨j, hj⟩ : ∃ j, j = k - 833333 * q := ⟨_, rfl⟩
  have hkj : k = 2500000 * j := by linarith
  have j0 : 0 < j := by linarith [hk.1]
  have j1 : j < 4 := by linarith [hk.2]
  have e : (j.toNat : Int) = j := Int.toNat_of_nonneg (by linarith)
  clear hj h3 hq hk
  have hjj : j.toNat < 4 := by omega
  refine ⟨j.toNat, hjj, ?_⟩
  rw [e, hkj]
  exact Int.mul_comm _ _

theorem whole_days_div (j : Nat) : (j : Int) * 3 = j * 1000000 * 30 / 10000000 := by
  rw [show (j : Int) * 1000000 * 30 = j * 3 * 10000000 by ring, Int.mul_ediv_cancel _ (by decide)]

theorem whole_months_div (j : Nat) : (j : Int) * 3 = j * 2500000 * 12 / 10000000 := by
  rw [show (j : Int) * 2500000 * 12 = j * 3 * 10000000 by ring, Int.mul_ediv_cancel _ (by decide)]

/-- The days in a fraction of a week or month. -/
theorem frac_days {k c : Int} {r : Rat} (hk : 0 < k ∧ k < 10000000) (hrnd : rnd ((k : Rat) / 10000000) = .fin r)
    (he : |r - k / 10000000| ≤ 12 / 100000000000000000) (hr : 0 < r ∧ r ≤ 1) (hc : c = 7 ∨ c = 30) :
    ∃ y, rnd (r * c) = .fin y ∧ truncQ y = k * c / 10000000 := by
  obtain ⟨y, hy, h1, -⟩ := scaled_near he hr (c := c) (by omega)
  have h1' := le_trans h1 (show (1 : Rat) / 10000000000000 ≤ 1 / 100000000 by norm_num)
  by_cases hm : k * c % 10000000 = 0
  swap
  · exact ⟨y, hy, trunc_apart (by rcases hc with rfl | rfl <;> omega) h1' hm⟩
  rcases hc with rfl | rfl
  · exact absurd hm (by omega)
  · obtain ⟨j, hj0, hj⟩ := whole_days hk hm
    obtain ⟨r', a1, a2⟩ := thirty_exact ⟨j, hj0⟩
    simp only at a1 a2
    rw [← hj, hrnd, F64.fin.injEq] at a1
    subst a1
    push_cast at a2 ⊢
    refine ⟨_, a2, ?_⟩
    have := truncQ_int (j * 3 : Int)
    push_cast at this
    rw [this]
    rw [hj]; exact whole_days_div j

/-- The months in a fraction of a year. -/
theorem frac_months {k : Int} {r : Rat} (hk : 0 < k ∧ k < 10000000) (hrnd : rnd ((k : Rat) / 10000000) = .fin r)
    (he : |r - k / 10000000| ≤ 12 / 100000000000000000) (hr : 0 < r ∧ r ≤ 1) :
    ∃ y, rnd (r * (12 : Int)) = .fin y ∧ truncQ y = k * 12 / 10000000 := by
  obtain ⟨y, hy, h1, -⟩ := scaled_near he hr (c := 12) (by omega)
  have h1' := le_trans h1 (show (1 : Rat) / 10000000000000 ≤ 1 / 100000000 by norm_num)
  by_cases hm : k * 12 % 10000000 = 0
  swap
  · exact ⟨y, hy, trunc_apart (by omega) h1' hm⟩
  obtain ⟨j, hj0, hj⟩ := whole_months hk hm
  obtain ⟨r', a1, a2⟩ := twelve_exact ⟨j, hj0⟩
  simp only at a1 a2
  rw [← hj, hrnd, F64.fin.injEq] at a1
  subst a1
  push_cast at a2 ⊢
  refine ⟨_, a2, ?_⟩
  have := truncQ_int (j * 3 : Int)
  push_cast at this
  rw [this]
  rw [hj]; exact whole_months_div j

/-- The months in a fraction of decades, centuries or millennia. -/
theorem frac_years {k c : Int} {r : Rat} (hk : 0 < k ∧ k < 10000000)
    (he : |r - k / 10000000| ≤ 12 / 100000000000000000) (hr : 0 < r ∧ r ≤ 1) (hc : c = 10 ∨ c = 100 ∨ c = 1000) :
    ∃ y z, rnd (r * (12 : Int)) = .fin y ∧ rnd (y * c) = .fin z ∧ |z| ≤ 40000 ∧
      (truncQ z = k * (12 * c) / 10000000 ∨
        k * (12 * c) % 10000000 = 0 ∧ truncQ z = k * (12 * c) / 10000000 - 1) := by
  obtain ⟨y, hy, h1, hyb⟩ := scaled_near he hr (c := 12) (by omega)
  have c1 : (1 : Rat) ≤ c := by exact_mod_cast (show 1 ≤ c by omega)
  have c2 : (c : Rat) ≤ 1000 := by exact_mod_cast (show c ≤ 1000 by omega)
  have hb : |y * c| ≤ 31000 := by
    rw [abs_mul, abs_of_pos (show (0 : Rat) < c by linarith)]
    calc |y| * c ≤ 31 * 1000 := mul_le_mul hyb c2 (by linarith) (by norm_num)
      _ = 31000 := by norm_num
  obtain ⟨z, hz, hze⟩ := rnd_within hb (by norm_num)
  norm_num at hze
  have hd : |y * c - ((k * (12 * c) : Int) : Rat) / 10000000| ≤ 1 / 10000000000000 * 1000 := by
    rw [show y * c - ((k * (12 * c) : Int) : Rat) / 10000000 = (y - ((k * 12 : Int) : Rat) / 10000000) * c by
      push_cast; ring, abs_mul, abs_of_pos (show (0 : Rat) < c by linarith)]
    exact mul_le_mul h1 c2 (by linarith) (by norm_num)
  refine ⟨y, z, hy, hz, ?_, ?_⟩
  · rw [abs_le] at hze hb ⊢; constructor <;> linarith
  · refine trunc_near (by rcases hc with rfl | rfl | rfl <;> omega) ?_
    rw [abs_le] at hze hd ⊢; constructor <;> linarith

end Pg
