import Verif.Lemmas.FractionsF64
import Verif.Lemmas.QuantitiesText

/-! # Adding quantities with fractions -/

namespace Pg
open Spec F64

variable {p : Profile}

/-- The mask of a unit with a fraction. -/
def fracMask (u : IvUnit) : Nat := if u = .second then 28672 else 2 ^ unitExp u

/-- What a quantity with a fraction does to the fields. -/
def addsFrac (p : Profile) (u : IvUnit) : Prop := ∀ {sg n k : Int} {t : TmF} {M M' D D' W W' S S' : Int} {r : Rat},
    QInv t M M' D D' W W' S S' → sg = 1 ∨ sg = -1 → 0 ≤ n → n ≤ 2147483647 → 0 < k ∧ k < 10000000 →
    rnd ((k : Rat) / 10000000) = .fin r → |r - k / 10000000| ≤ 12 / 100000000000000000 → 0 < r ∧ r ≤ 1 →
    M' + n * u.months ≤ 2100000000 → D' + n * u.days ≤ 2100000000 →
    W' + n * wholeMinutes u ≤ 2100000000 → S' + n * subMinute u ≤ 2100000000000000 →
    ∃ t' m d s, addUnit p (unitTf u) (sg * n) (.fin (sg * r)) t = (.ok (fracMask u), t') ∧ FractionIs u k m d s ∧
      QInv t' (M + sg * (n * u.months + m)) (M' + n * u.months + 20000) (D + sg * (n * u.days + d))
        (D' + n * u.days + 100) (W + sg * (n * wholeMinutes u)) (W' + n * wholeMinutes u)
        (S + sg * (n * subMinute u + s)) (S' + n * subMinute u + 1000000000000)

theorem sg_rat {sg : Int} (hs : sg = 1 ∨ sg = -1) {r : Rat} (hr : 0 < r ∧ r ≤ 1) :
    |(sg : Rat) * r| ≤ 1 ∧ (sg : Rat) * r ≠ 0 := by
  rcases hs with rfl | rfl
  · push_cast
    rw [one_mul, abs_of_pos hr.1]
    exact ⟨hr.2, ne_of_gt hr.1⟩
  · push_cast
    rw [neg_one_mul, abs_neg, abs_of_pos hr.1]
    exact ⟨hr.2, by simpa using ne_of_gt hr.1⟩

theorem addFrac_clock (p : Profile) (u : IvUnit) (hu : u = .minute ∨ u = .hour ∨ u = .day) : addsFrac p u := by
  intro sg n k t M M' D D' W W' S S' r h hs n0 hn hk hrnd he hr hM hD hW hS
  obtain ⟨m, m', d, d', w, w', s, s'⟩ := h
  obtain ⟨tm, f⟩ := t
  obtain ⟨a1, a2⟩ := sg_rat hs hr
  have key : ∀ c e : Int, (c = 60 ∧ e = 6 ∨ c = 3600 ∧ e = 360 ∨ c = 86400 ∧ e = 8640) →
      |(sg : Rat) * r * c * 1000000 - ((sg * (k * e) : Int) : Rat)| ≤ 1 / 1000 := by
    intro c e hc
    have hd : (sg : Rat) * r * c * 1000000 - ((sg * (k * e) : Int) : Rat) = sg * ((r - k / 10000000) * (c * 1000000)) := by
      have : (e : Rat) * 10 = c := by
        have : e * 10 = c := by omega
        exact_mod_cast this
      push_cast
      rw [← this]; ring
    have c1 : (0 : Rat) < c := by exact_mod_cast (show 0 < c by omega)
    have c2 : (c : Rat) ≤ 86400 := by exact_mod_cast (show c ≤ 86400 by omega)
    rw [hd, abs_mul, show |(sg : Rat)| = 1 by rcases hs with rfl | rfl <;> simp, one_mul, abs_mul,
      abs_of_pos (show (0 : Rat) < c * 1000000 by linarith)]
    calc |r - k / 10000000| * (c * 1000000) ≤ 12 / 100000000000000000 * (86400 * 1000000) :=
          mul_le_mul he (by linarith) (by linarith) (by norm_num)
      _ ≤ 1 / 1000 := by norm_num
  clear he hrnd
  rcases hu with rfl | rfl | rfl
  · simp only [IvUnit.months, IvUnit.days, wholeMinutes, subMinute, Int.mul_zero, Int.mul_one, Int.add_zero, Abs2]
      at hM hD hW hS m m' d d' w w' s s'
    have hx : -2147483647 ≤ tm.min + sg * n ∧ tm.min + sg * n ≤ 2147483647 := by rcases hs with rfl | rfl <;> omega
    obtain ⟨a, b, hab, r1, r2, r3, r4, r5⟩ := adjustFractSeconds_near (p := p) (scale := 60) (le_trans a1 (by norm_num)) (by omega)
      (key 60 6 (by omega)) (t := ({ tm with min := tm.min + sg * n }, f)) (by simp only; omega) (by simp only; omega)
    refine ⟨({ tm with min := tm.min + sg * n, sec := tm.sec + a }, f + b), 0, 0, k * 6, ?_, ⟨rfl, rfl, rfl⟩, ?_⟩
    · simp only [unitTf, addUnit, addMin, St.bind_run, St.get_run, St.lift_run, St.mod_run, St.pure_run,
        chk32_ok (show In32 (tm.min + sg * n) by unfold In32; omega), hab]
      rfl
    · rcases hs with rfl | rfl <;> constructor <;> simp only [IvUnit.months, IvUnit.days, wholeMinutes, subMinute,
        Int.mul_zero, Int.mul_one, Int.add_zero, Abs2] <;> omega
  · simp only [IvUnit.months, IvUnit.days, wholeMinutes, subMinute, Int.mul_zero, Int.mul_one, Int.add_zero, Abs2]
      at hM hD hW hS m m' d d' w w' s s'
    have hx : -2147483647 ≤ tm.hour + sg * n ∧ tm.hour + sg * n ≤ 2147483647 := by rcases hs with rfl | rfl <;> omega
    obtain ⟨a, b, hab, r1, r2, r3, r4, r5⟩ := adjustFractSeconds_near (p := p) (scale := 3600) (le_trans a1 (by norm_num)) (by omega)
      (key 3600 360 (by omega)) (t := ({ tm with hour := tm.hour + sg * n }, f)) (by simp only; omega) (by simp only; omega)
    refine ⟨({ tm with hour := tm.hour + sg * n, sec := tm.sec + a }, f + b), 0, 0, k * 360, ?_, ⟨rfl, rfl, rfl⟩, ?_⟩
    · simp only [unitTf, addUnit, addHour, St.bind_run, St.get_run, St.lift_run, St.mod_run, St.pure_run,
        chk32_ok (show In32 (tm.hour + sg * n) by unfold In32; omega), hab]
      rfl
    · rcases hs with rfl | rfl <;> constructor <;> simp only [IvUnit.months, IvUnit.days, wholeMinutes, subMinute,
        Int.mul_zero, Int.mul_one, Int.add_zero, Abs2] <;> omega
  · simp only [IvUnit.months, IvUnit.days, wholeMinutes, subMinute, Int.mul_zero, Int.mul_one, Int.add_zero, Abs2]
      at hM hD hW hS m m' d d' w w' s s'
    have hx : -2147483647 ≤ tm.mday + sg * n ∧ tm.mday + sg * n ≤ 2147483647 := by rcases hs with rfl | rfl <;> omega
    obtain ⟨a, b, hab, r1, r2, r3, r4, r5⟩ := adjustFractSeconds_near (p := p) (scale := 86400) (le_trans a1 (by norm_num)) (by omega)
      (key 86400 8640 (by omega)) (t := ({ tm with mday := tm.mday + sg * n }, f)) (by simp only; omega) (by simp only; omega)
    refine ⟨({ tm with mday := tm.mday + sg * n, sec := tm.sec + a }, f + b), 0, 0, k * 8640, ?_, ⟨rfl, rfl, rfl⟩, ?_⟩
    · simp only [unitTf, addUnit, addMday, St.bind_run, St.get_run, St.lift_run, St.mod_run, St.pure_run,
        chk32_ok (show In32 (tm.mday + sg * n) by unfold In32; omega), hab]
      rfl
    · rcases hs with rfl | rfl <;> constructor <;> simp only [IvUnit.months, IvUnit.days, wholeMinutes, subMinute,
        Int.mul_zero, Int.mul_one, Int.add_zero, Abs2] <;> omega

theorem sg_trunc {sg : Int} (hs : sg = 1 ∨ sg = -1) (y : Rat) : truncQ (sg * y) = sg * truncQ y := by
  rcases hs with rfl | rfl
  · simp
  · have := truncQ_neg y
    push_cast
    rw [neg_one_mul, this]; ring

theorem addFrac_days (p : Profile) (u : IvUnit) (hu : u = .week ∨ u = .month) : addsFrac p u := by
  intro sg n k t M M' D D' W W' S S' r h hs n0 hn hk hrnd he hr hM hD hW hS
  obtain ⟨m, m', d, d', w, w', s, s'⟩ := h
  obtain ⟨tm, f⟩ := t
  obtain ⟨a1, a2⟩ := sg_rat hs hr
  have key : ∀ c : Int, c = 7 ∨ c = 30 → ∃ y, rnd ((sg : Rat) * r * c) = .fin y ∧ truncQ y = sg * (k * c / 10000000) ∧
      |((sg : Rat) * r * c - ((sg * (k * c / 10000000) : Int) : Rat)) * 86400000000 -
        ((sg * ((k * c % 10000000) * 8640) : Int) : Rat)| ≤ 1 / 2000 := by
    intro c hc
    obtain ⟨y, hy, ht⟩ := frac_days hk hrnd he hr hc
    refine ⟨sg * y, by rw [mul_assoc]; exact rnd_sg hs hy, by rw [sg_trunc hs, ht], ?_⟩
    have e := Int.emod_add_mul_ediv (k * c) 10000000
    generalize k * c / 10000000 = a at e
    generalize k * c % 10000000 = b at e
    have e' : (b : Rat) = k * c - 10000000 * a := by
      have : b = k * c - 10000000 * a := by linarith
      exact_mod_cast this
    have hd : ((sg : Rat) * r * c - ((sg * a : Int) : Rat)) * 86400000000 - ((sg * (b * 8640) : Int) : Rat) =
        sg * ((r - k / 10000000) * (c * 86400000000)) := by
      push_cast
      rw [e']; ring
    have c1 : (0 : Rat) < c := by exact_mod_cast (show 0 < c by omega)
    have c2 : (c : Rat) ≤ 30 := by exact_mod_cast (show c ≤ 30 by omega)
    rw [hd, abs_mul, show |(sg : Rat)| = 1 by rcases hs with rfl | rfl <;> simp, one_mul, abs_mul,
      abs_of_pos (show (0 : Rat) < c * 86400000000 by linarith)]
    calc |r - k / 10000000| * (c * 86400000000) ≤ 12 / 100000000000000000 * (30 * 86400000000) :=
          mul_le_mul he (by linarith) (by linarith) (by norm_num)
      _ ≤ 1 / 2000 := by norm_num
  clear he hrnd
  rcases hu with rfl | rfl
  · simp only [IvUnit.months, IvUnit.days, wholeMinutes, subMinute, Int.mul_zero, Int.mul_one, Int.add_zero, Abs2]
      at hM hD hW hS m m' d d' w w' s s'
    obtain ⟨y, hy, ht, hE⟩ := key 7 (by omega)
    have hq : 0 ≤ k * 7 / 10000000 ∧ k * 7 / 10000000 ≤ 7 := by
      constructor
      · exact Int.ediv_nonneg (by omega) (by omega)
      · exact Int.ediv_le_of_le_mul (by omega) (by omega)
    generalize hx' : k * 7 / 10000000 = dd at hy ht hE hq
    generalize hz' : k * 7 % 10000000 = rr at hE
    have hx : -2147000000 ≤ tm.mday + sg * n * 7 ∧ tm.mday + sg * n * 7 ≤ 2147000000 := by rcases hs with rfl | rfl <;> omega
    obtain ⟨a, b, hab, r1, r2, r3, r4, r5⟩ := adjustFractDays_near (p := p) (scale := 7) a1 (by omega) hy ht hE
      (t := ({ tm with mday := tm.mday + sg * n * 7 }, f)) (by simp only; omega) (by simp only; omega) (by simp only; omega)
      (fun h0 => absurd h0 a2)
    refine ⟨({ tm with mday := tm.mday + sg * n * 7 + sg * dd, sec := tm.sec + a }, f + b), 0, dd, rr * 8640, ?_,
      ⟨rfl, hx'.symm, by rw [hz']⟩, ?_⟩
    · simp only [unitTf, addUnit, addMday, St.bind_run, St.get_run, St.lift_run, St.mod_run, St.pure_run,
        chk32_ok (show In32 (sg * n * 7) by unfold In32; rcases hs with rfl | rfl <;> omega),
        chk32_ok (show In32 (tm.mday + sg * n * 7) by unfold In32; omega), hab]
      rfl
    · clear hx' hz' hE ht hy key
      rcases hs with rfl | rfl <;> constructor <;> simp only [IvUnit.months, IvUnit.days, wholeMinutes, subMinute,
        Int.mul_zero, Int.mul_one, Int.add_zero, Abs2] <;> omega
  · simp only [IvUnit.months, IvUnit.days, wholeMinutes, subMinute, Int.mul_zero, Int.mul_one, Int.add_zero, Abs2]
      at hM hD hW hS m m' d d' w w' s s'
    obtain ⟨y, hy, ht, hE⟩ := key 30 (by omega)
    have hq : 0 ≤ k * 30 / 10000000 ∧ k * 30 / 10000000 ≤ 30 := by
      constructor
      · exact Int.ediv_nonneg (by omega) (by omega)
      · exact Int.ediv_le_of_le_mul (by omega) (by omega)
    generalize hx' : k * 30 / 10000000 = dd at hy ht hE hq
    generalize hz' : k * 30 % 10000000 = rr at hE
    have hx : -2147000000 ≤ tm.mon + sg * n ∧ tm.mon + sg * n ≤ 2147000000 := by rcases hs with rfl | rfl <;> omega
    obtain ⟨a, b, hab, r1, r2, r3, r4, r5⟩ := adjustFractDays_near (p := p) (scale := 30) a1 (by omega) hy ht hE
      (t := ({ tm with mon := tm.mon + sg * n }, f)) (by simp only; omega) (by simp only; omega) (by simp only; omega)
      (fun h0 => absurd h0 a2)
    refine ⟨({ tm with mon := tm.mon + sg * n, mday := tm.mday + sg * dd, sec := tm.sec + a }, f + b), 0, dd, rr * 8640, ?_,
      ⟨rfl, hx'.symm, by rw [hz']⟩, ?_⟩
    · simp only [unitTf, addUnit, addMon, St.bind_run, St.get_run, St.lift_run, St.mod_run, St.pure_run,
        chk32_ok (show In32 (tm.mon + sg * n) by unfold In32; omega), hab]
      rfl
    · clear hx' hz' hE ht hy key
      rcases hs with rfl | rfl <;> constructor <;> simp only [IvUnit.months, IvUnit.days, wholeMinutes, subMinute,
        Int.mul_zero, Int.mul_one, Int.add_zero, Abs2] <;> omega

theorem addFrac_second (p : Profile) : addsFrac p .second := by
  intro sg n k t M M' D D' W W' S S' r h hs n0 hn hk hrnd he hr hM hD hW hS
  obtain ⟨m, m', d, d', w, w', s, s'⟩ := h
  obtain ⟨tm, f⟩ := t
  obtain ⟨a1, a2⟩ := sg_rat hs hr
  simp only [IvUnit.months, IvUnit.days, wholeMinutes, subMinute, Int.mul_zero, Int.mul_one, Int.add_zero, Abs2]
    at hM hD hW hS m m' d d' w w' s s'
  have hm := roundMicros_near (x := (sg : Rat) * r) (le_trans a1 (by norm_num))
  obtain ⟨b, hb⟩ : ∃ b, b = roundMicros (.fin ((sg : Rat) * r)) := ⟨_, rfl⟩
  rw [← hb] at hm
  have hk' : -5 ≤ sg * b * 10 - k ∧ sg * b * 10 - k ≤ 5 := by
    rw [abs_le] at hm he
    rcases hs with rfl | rfl
    · push_cast at hm
      have u : ((1 * b * 10 - k : Int) : Rat) < (6 : Int) := by push_cast; linarith
      have v : ((-6 : Int) : Rat) < ((1 * b * 10 - k : Int) : Rat) := by push_cast; linarith
      have u' : 1 * b * 10 - k < 6 := by exact_mod_cast u
      have v' : -6 < 1 * b * 10 - k := by exact_mod_cast v
      omega
    · push_cast at hm
      have u : ((-1 * b * 10 - k : Int) : Rat) < (6 : Int) := by push_cast; linarith
      have v : ((-6 : Int) : Rat) < ((-1 * b * 10 - k : Int) : Rat) := by push_cast; linarith
      have u' : -1 * b * 10 - k < 6 := by exact_mod_cast u
      have v' : -6 < -1 * b * 10 - k := by exact_mod_cast v
      omega
  have hx : -2147000000 ≤ tm.sec + sg * n ∧ tm.sec + sg * n ≤ 2147000000 := by rcases hs with rfl | rfl <;> omega
  have hbb : -2000000 ≤ b ∧ b ≤ 2000000 := by rcases hs with rfl | rfl <;> omega
  refine ⟨({ tm with sec := tm.sec + sg * n }, f + b), 0, 0, sg * b, ?_, ⟨rfl, rfl, hk'⟩, ?_⟩
  · simp only [unitTf, addUnit, addSec, addFsec, ← hb, St.bind_run, St.get_run, St.lift_run, St.mod_run, St.pure_run,
      chk32_ok (show In32 (tm.sec + sg * n) by unfold In32; omega),
      chk64_ok (show In64 (f + b) by unfold In64; omega)]
    rw [if_neg (by simpa using a2)]
    rfl
  · clear hk' hm hb he hrnd
    rcases hs with rfl | rfl <;> constructor <;> simp only [IvUnit.months, IvUnit.days, wholeMinutes, subMinute,
      Int.mul_zero, Int.mul_one, Int.add_zero, Abs2] <;> omega

/-- Rounding to whole numbers after one addition and one multiplication. -/
theorem sum_round {v : Int} {x B : Rat} (hv : |(v : Rat)| ≤ B) (hx : |x| ≤ 1) (hB : B ≤ 2147483647) :
    ∃ z, (F64.ofInt v).add (.fin x) = .fin z ∧ |z - (v + x)| ≤ (B + 1) / 2 ^ 53 + 1 / 2 ^ 100 ∧ |z| ≤ B + 2 := by
  have hv' : -9007199254740992 ≤ v ∧ v ≤ 9007199254740992 := by
    rw [abs_le] at hv
    have u : (v : Rat) ≤ (9007199254740992 : Int) := by push_cast; linarith
    have w : ((-9007199254740992 : Int) : Rat) ≤ v := by push_cast; linarith
    exact ⟨by exact_mod_cast w, by exact_mod_cast u⟩
  rw [F64.ofInt_ok hv', fin_add]
  have hb : |(v : Rat) + x| ≤ B + 1 := by rw [abs_le] at hv hx ⊢; constructor <;> linarith
  obtain ⟨z, hz, hze⟩ := rnd_within hb (le_trans (add_le_add_left hB 1) (by norm_num))
  refine ⟨z, hz, hze, ?_⟩
  have : (B + 1) / 2 ^ 53 + 1 / 2 ^ 100 ≤ 1 := by norm_num; linarith
  rw [abs_le] at hze hb ⊢
  constructor <;> linarith

theorem addFrac_microsecond (p : Profile) : addsFrac p .microsecond := by
  intro sg n k t M M' D D' W W' S S' r h hs n0 hn hk hrnd he hr hM hD hW hS
  obtain ⟨m, m', d, d', w, w', s, s'⟩ := h
  obtain ⟨tm, f⟩ := t
  obtain ⟨a1, a2⟩ := sg_rat hs hr
  simp only [IvUnit.months, IvUnit.days, wholeMinutes, subMinute, Int.mul_zero, Int.mul_one, Int.add_zero, Abs2]
    at hM hD hW hS m m' d d' w w' s s'
  have hv : |((sg * n : Int) : Rat)| ≤ 2147483647 := by
    have h1 : (0 : Rat) ≤ n := by exact_mod_cast n0
    have h2 : (n : Rat) ≤ 2147483647 := by exact_mod_cast hn
    rw [abs_le]
    rcases hs with rfl | rfl <;> push_cast <;> constructor <;> linarith
  obtain ⟨z, hz, hze, hzb⟩ := sum_round hv a1 (le_refl _)
  norm_num at hze
  have hround := round_i64 (y := z) (le_trans hzb (by norm_num))
  have hm := roundAway_err z
  obtain ⟨b, hb⟩ : ∃ b, b = roundAway z := ⟨_, rfl⟩
  rw [← hb] at hm hround
  have hk' : -5000002 ≤ (sg * b - n) * 10000000 - k ∧ (sg * b - n) * 10000000 - k ≤ 5000002 := by
    rw [abs_le] at hm he hze
    rcases hs with rfl | rfl
    · push_cast at hze
      have u : (((1 * b - n) * 10000000 - k : Int) : Rat) < (5000003 : Int) := by push_cast; linarith
      have v : ((-5000003 : Int) : Rat) < (((1 * b - n) * 10000000 - k : Int) : Rat) := by push_cast; linarith
      have u' : (1 * b - n) * 10000000 - k < 5000003 := by exact_mod_cast u
      have v' : -5000003 < (1 * b - n) * 10000000 - k := by exact_mod_cast v
      omega
    · push_cast at hze
      have u : (((-1 * b - n) * 10000000 - k : Int) : Rat) < (5000003 : Int) := by push_cast; linarith
      have v : ((-5000003 : Int) : Rat) < (((-1 * b - n) * 10000000 - k : Int) : Rat) := by push_cast; linarith
      have u' : (-1 * b - n) * 10000000 - k < 5000003 := by exact_mod_cast u
      have v' : -5000003 < (-1 * b - n) * 10000000 - k := by exact_mod_cast v
      omega
  have hbb : -3000000000 ≤ b ∧ b ≤ 3000000000 := by rcases hs with rfl | rfl <;> omega
  refine ⟨(tm, f + b), 0, 0, sg * b - n, ?_, ⟨rfl, rfl, hk'⟩, ?_⟩
  · simp only [unitTf, addUnit, addFsec, hz, hround, St.bind_run, St.get_run, St.lift_run, St.mod_run, St.pure_run,
      chk64_ok (show In64 (f + b) by unfold In64; omega)]
    rfl
  · clear hk' hm hb he hrnd hz hze hzb hround hv
    rcases hs with rfl | rfl <;> constructor <;> simp only [IvUnit.months, IvUnit.days, wholeMinutes, subMinute,
      Int.mul_zero, Int.mul_one, Int.add_zero, Abs2] <;> omega

theorem addFrac_millisecond (p : Profile) : addsFrac p .millisecond := by
  intro sg n k t M M' D D' W W' S S' r h hs n0 hn hk hrnd he hr hM hD hW hS
  obtain ⟨m, m', d, d', w, w', s, s'⟩ := h
  obtain ⟨tm, f⟩ := t
  obtain ⟨a1, a2⟩ := sg_rat hs hr
  simp only [IvUnit.months, IvUnit.days, wholeMinutes, subMinute, Int.mul_zero, Int.mul_one, Int.add_zero, Abs2]
    at hM hD hW hS m m' d d' w w' s s'
  have hqr := tdiv_or (sg * n) 1000
  obtain ⟨q, hq⟩ : ∃ q, q = tdiv (sg * n) 1000 := ⟨_, rfl⟩
  rw [← hq] at hqr
  obtain ⟨v, hvq⟩ : ∃ v, v = sg * n - q * 1000 := ⟨_, rfl⟩
  have hv1 : -999 ≤ v ∧ v ≤ 999 := by rcases hs with rfl | rfl <;> omega
  have hv : |(v : Rat)| ≤ 999 := by
    rw [abs_le]
    exact ⟨by exact_mod_cast hv1.1, by exact_mod_cast hv1.2⟩
  obtain ⟨z, hz, hze, hzb⟩ := sum_round hv a1 (by norm_num)
  norm_num at hze hzb
  have hb1 : |z * 1000| ≤ 1001000 := by rw [abs_le] at hzb ⊢; constructor <;> linarith
  obtain ⟨y, hy, hye⟩ := rnd_within hb1 (by norm_num)
  norm_num at hye
  have hround := round_i64 (y := y) (by rw [abs_le] at hb1 hye ⊢; constructor <;> linarith)
  have hm := roundAway_err y
  obtain ⟨b, hb⟩ : ∃ b, b = roundAway y := ⟨_, rfl⟩
  rw [← hb] at hm hround
  have hk' : -5000 ≤ (sg * b - sg * v * 1000) * 10000 - k ∧ (sg * b - sg * v * 1000) * 10000 - k ≤ 5000 := by
    rw [abs_le] at hm he hze hye
    rcases hs with rfl | rfl
    · push_cast at hze
      have u : (((1 * b - 1 * v * 1000) * 10000 - k : Int) : Rat) < (5001 : Int) := by push_cast; linarith
      have v2 : ((-5001 : Int) : Rat) < (((1 * b - 1 * v * 1000) * 10000 - k : Int) : Rat) := by push_cast; linarith
      have u' : (1 * b - 1 * v * 1000) * 10000 - k < 5001 := by exact_mod_cast u
      have v' : -5001 < (1 * b - 1 * v * 1000) * 10000 - k := by exact_mod_cast v2
      omega
    · push_cast at hze
      have u : (((-1 * b - -1 * v * 1000) * 10000 - k : Int) : Rat) < (5001 : Int) := by push_cast; linarith
      have v2 : ((-5001 : Int) : Rat) < (((-1 * b - -1 * v * 1000) * 10000 - k : Int) : Rat) := by push_cast; linarith
      have u' : (-1 * b - -1 * v * 1000) * 10000 - k < 5001 := by exact_mod_cast u
      have v' : -5001 < (-1 * b - -1 * v * 1000) * 10000 - k := by exact_mod_cast v2
      omega
  have hbb : -3000000 ≤ b ∧ b ≤ 3000000 := by rcases hs with rfl | rfl <;> omega
  have hx : -2147000000 ≤ tm.sec + q ∧ tm.sec + q ≤ 2147000000 := by rcases hs with rfl | rfl <;> omega
  refine ⟨({ tm with sec := tm.sec + q }, f + b), 0, 0, sg * b - sg * v * 1000, ?_, ⟨rfl, rfl, hk'⟩, ?_⟩
  · simp only [unitTf, addUnit, addSec, addFsec, ← hq, ← hvq, hz, St.bind_run, St.get_run, St.lift_run, St.mod_run, St.pure_run,
      chk32_ok (show In32 (tm.sec + q) by unfold In32; omega)]
    rw [fin_mul, hy, hround, chk64_ok (show In64 (f + b) by unfold In64; omega)]
    rfl
  · clear hk' hm hb he hrnd hz hze hzb hround hv hq
    rcases hs with rfl | rfl <;> constructor <;> simp only [IvUnit.months, IvUnit.days, wholeMinutes, subMinute,
      Int.mul_zero, Int.mul_one, Int.add_zero, Abs2] <;> omega

theorem addFrac_year (p : Profile) : addsFrac p .year := by
  intro sg n k t M M' D D' W W' S S' r h hs n0 hn hk hrnd he hr hM hD hW hS
  obtain ⟨m, m', d, d', w, w', s, s'⟩ := h
  obtain ⟨tm, f⟩ := t
  obtain ⟨a1, a2⟩ := sg_rat hs hr
  simp only [IvUnit.months, IvUnit.days, wholeMinutes, subMinute, Int.mul_zero, Int.mul_one, Int.add_zero, Abs2]
    at hM hD hW hS m m' d d' w w' s s'
  obtain ⟨y, hy, ht⟩ := frac_months hk hrnd he hr
  have hmul : (F64.fin ((sg : Rat) * r)).mul (F64.ofInt 12) = .fin (sg * y) := by
    rw [F64.ofInt_ok (by omega), fin_mul, mul_assoc]
    exact rnd_sg hs hy
  have hq : 0 ≤ k * 12 / 10000000 ∧ k * 12 / 10000000 ≤ 12 := by
    constructor
    · exact Int.ediv_nonneg (by omega) (by omega)
    · exact Int.ediv_le_of_le_mul (by omega) (by omega)
  have hyb : |(sg : Rat) * y| ≤ 2000000000 := by
    have h1 := truncQ_err y
    rw [ht] at h1
    have h2 : (0 : Rat) ≤ ((k * 12 / 10000000 : Int) : Rat) := by exact_mod_cast hq.1
    have h3 : ((k * 12 / 10000000 : Int) : Rat) ≤ 12 := by exact_mod_cast hq.2
    rw [abs_lt] at h1
    rw [abs_le]
    rcases hs with rfl | rfl <;> push_cast <;> constructor <;> linarith
  have hi := toI32_fin hyb
  rw [sg_trunc hs, ht] at hi
  generalize hx' : k * 12 / 10000000 = dd at hi hq
  have hx : -2147000000 ≤ tm.year + sg * n ∧ tm.year + sg * n ≤ 2147000000 := by rcases hs with rfl | rfl <;> omega
  have hz : -2147000000 ≤ tm.mon + sg * dd ∧ tm.mon + sg * dd ≤ 2147000000 := by rcases hs with rfl | rfl <;> omega
  refine ⟨({ tm with year := tm.year + sg * n, mon := tm.mon + sg * dd }, f), dd, 0, 0, ?_, ⟨hx'.symm, rfl, rfl⟩, ?_⟩
  · simp only [unitTf, addUnit, addYears, addYear, addMon, scaleYears, if_true, St.bind_run, St.get_run, St.lift_run,
      St.mod_run, St.pure_run, chk32_ok (show In32 (tm.year + sg * n) by unfold In32; omega)]
    rw [if_neg (by simpa using a2)]
    simp only [hmul, hi, St.bind_run, St.get_run, St.lift_run, St.mod_run,
      chk32_ok (show In32 (tm.mon + sg * dd) by unfold In32; omega)]
    rfl
  · clear hx' hi hmul hyb ht hy he hrnd
    rcases hs with rfl | rfl <;> constructor <;> simp only [IvUnit.months, IvUnit.days, wholeMinutes, subMinute,
      Int.mul_zero, Int.mul_one, Int.add_zero, Abs2] <;> omega

theorem addFrac_years (p : Profile) (u : IvUnit) (hu : u = .decade ∨ u = .century ∨ u = .millennium) : addsFrac p u := by
  intro sg n k t M M' D D' W W' S S' r h hs n0 hn hk hrnd he hr hM hD hW hS
  obtain ⟨m, m', d, d', w, w', s, s'⟩ := h
  obtain ⟨tm, f⟩ := t
  obtain ⟨a1, a2⟩ := sg_rat hs hr
  have key : ∀ c : Int, c = 10 ∨ c = 100 ∨ c = 1000 → ∃ dd, 0 ≤ dd + 1 ∧ dd ≤ 12000 ∧
      (((F64.fin ((sg : Rat) * r)).mul (F64.ofInt 12)).mul (F64.ofInt c)).toI32 = sg * dd ∧
      (dd = k * (12 * c) / 10000000 ∨ k * (12 * c) % 10000000 = 0 ∧ dd = k * (12 * c) / 10000000 - 1 ∧ 0 < k) := by
    intro c hc
    obtain ⟨y, z, hy, hz, hzb, ht⟩ := frac_years hk he hr hc
    have hmul : ((F64.fin ((sg : Rat) * r)).mul (F64.ofInt 12)).mul (F64.ofInt c) = .fin (sg * z) := by
      rw [F64.ofInt_ok (by omega), fin_mul, mul_assoc, rnd_sg hs hy, F64.ofInt_ok (by omega), fin_mul, mul_assoc,
        rnd_sg hs hz]
    have hq : 0 ≤ k * (12 * c) / 10000000 ∧ k * (12 * c) / 10000000 ≤ 12000 := by
      constructor
      · exact Int.ediv_nonneg (by rcases hc with rfl | rfl | rfl <;> omega) (by omega)
      · exact Int.ediv_le_of_le_mul (by omega) (by rcases hc with rfl | rfl | rfl <;> omega)
    have hsz : |(sg : Rat) * z| ≤ 2000000000 := by
      rw [abs_mul, show |(sg : Rat)| = 1 by rcases hs with rfl | rfl <;> simp, one_mul]
      exact le_trans hzb (by norm_num)
    have hi := toI32_fin hsz
    rw [sg_trunc hs] at hi
    refine ⟨truncQ z, ?_, ?_, by rw [hmul, hi], ?_⟩
    · rcases ht with ht | ht <;> omega
    · rcases ht with ht | ht <;> omega
    · rcases ht with ht | ht
      · exact Or.inl ht
      · exact Or.inr ⟨ht.1, ht.2, hk.1⟩
  clear he hrnd
  rcases hu with rfl | rfl | rfl
  · simp only [IvUnit.months, IvUnit.days, wholeMinutes, subMinute, Int.mul_zero, Int.mul_one, Int.add_zero, Abs2]
      at hM hD hW hS m m' d d' w w' s s'
    obtain ⟨dd, h1, h2, h3, h4⟩ := key 10 (by omega)
    clear key
    have hx : -2147000000 ≤ tm.year + sg * n * 10 ∧ tm.year + sg * n * 10 ≤ 2147000000 := by rcases hs with rfl | rfl <;> omega
    have hz : -2147000000 ≤ tm.mon + sg * dd ∧ tm.mon + sg * dd ≤ 2147000000 := by
      clear h4
      rcases hs with rfl | rfl <;> omega
    refine ⟨({ tm with year := tm.year + sg * n * 10, mon := tm.mon + sg * dd }, f), dd, 0, 0, ?_, ⟨h4, rfl, rfl⟩, ?_⟩
    · simp only [unitTf, addUnit, addYears, addYear, addMon, scaleYears, if_neg (show ¬ (10 : Int) = 1 by decide),
        St.bind_run, St.get_run, St.lift_run, St.mod_run, St.pure_run,
        chk32_ok (show In32 (sg * n * 10) by unfold In32; rcases hs with rfl | rfl <;> omega),
        chk32_ok (show In32 (tm.year + sg * n * 10) by unfold In32; omega)]
      rw [if_neg (by simpa using a2)]
      simp only [h3, St.bind_run, St.get_run, St.lift_run, St.mod_run,
        chk32_ok (show In32 (tm.mon + sg * dd) by unfold In32; omega)]
      rfl
    · clear h4 h3
      rcases hs with rfl | rfl <;> constructor <;> simp only [IvUnit.months, IvUnit.days, wholeMinutes, subMinute,
        Int.mul_zero, Int.mul_one, Int.add_zero, Abs2] <;> omega
  · simp only [IvUnit.months, IvUnit.days, wholeMinutes, subMinute, Int.mul_zero, Int.mul_one, Int.add_zero, Abs2]
      at hM hD hW hS m m' d d' w w' s s'
    obtain ⟨dd, h1, h2, h3, h4⟩ := key 100 (by omega)
    clear key
    have hx : -2147000000 ≤ tm.year + sg * n * 100 ∧ tm.year + sg * n * 100 ≤ 2147000000 := by rcases hs with rfl | rfl <;> omega
    have hz : -2147000000 ≤ tm.mon + sg * dd ∧ tm.mon + sg * dd ≤ 2147000000 := by
      clear h4
      rcases hs with rfl | rfl <;> omega
    refine ⟨({ tm with year := tm.year + sg * n * 100, mon := tm.mon + sg * dd }, f), dd, 0, 0, ?_, ⟨h4, rfl, rfl⟩, ?_⟩
    · simp only [unitTf, addUnit, addYears, addYear, addMon, scaleYears, if_neg (show ¬ (100 : Int) = 1 by decide),
        St.bind_run, St.get_run, St.lift_run, St.mod_run, St.pure_run,
        chk32_ok (show In32 (sg * n * 100) by unfold In32; rcases hs with rfl | rfl <;> omega),
        chk32_ok (show In32 (tm.year + sg * n * 100) by unfold In32; omega)]
      rw [if_neg (by simpa using a2)]
      simp only [h3, St.bind_run, St.get_run, St.lift_run, St.mod_run,
        chk32_ok (show In32 (tm.mon + sg * dd) by unfold In32; omega)]
      rfl
    · clear h4 h3
      rcases hs with rfl | rfl <;> constructor <;> simp only [IvUnit.months, IvUnit.days, wholeMinutes, subMinute,
        Int.mul_zero, Int.mul_one, Int.add_zero, Abs2] <;> omega
  · simp only [IvUnit.months, IvUnit.days, wholeMinutes, subMinute, Int.mul_zero, Int.mul_one, Int.add_zero, Abs2]
      at hM hD hW hS m m' d d' w w' s s'
    obtain ⟨dd, h1, h2, h3, h4⟩ := key 1000 (by omega)
    clear key
    have hx : -2147000000 ≤ tm.year + sg * n * 1000 ∧ tm.year + sg * n * 1000 ≤ 2147000000 := by rcases hs with rfl | rfl <;> omega
    have hz : -2147000000 ≤ tm.mon + sg * dd ∧ tm.mon + sg * dd ≤ 2147000000 := by
      clear h4
      rcases hs with rfl | rfl <;> omega
    refine ⟨({ tm with year := tm.year + sg * n * 1000, mon := tm.mon + sg * dd }, f), dd, 0, 0, ?_, ⟨h4, rfl, rfl⟩, ?_⟩
    · simp only [unitTf, addUnit, addYears, addYear, addMon, scaleYears, if_neg (show ¬ (1000 : Int) = 1 by decide),
        St.bind_run, St.get_run, St.lift_run, St.mod_run, St.pure_run,
        chk32_ok (show In32 (sg * n * 1000) by unfold In32; rcases hs with rfl | rfl <;> omega),
        chk32_ok (show In32 (tm.year + sg * n * 1000) by unfold In32; omega)]
      rw [if_neg (by simpa using a2)]
      simp only [h3, St.bind_run, St.get_run, St.lift_run, St.mod_run,
        chk32_ok (show In32 (tm.mon + sg * dd) by unfold In32; omega)]
      rfl
    · clear h4 h3
      rcases hs with rfl | rfl <;> constructor <;> simp only [IvUnit.months, IvUnit.days, wholeMinutes, subMinute,
        Int.mul_zero, Int.mul_one, Int.add_zero, Abs2] <;> omega

theorem addUnit_frac (p : Profile) (u : IvUnit) : addsFrac p u := by
  cases u
  · exact addFrac_microsecond p
  · exact addFrac_millisecond p
  · exact addFrac_second p
  · exact addFrac_clock p _ (by simp)
  · exact addFrac_clock p _ (by simp)
  · exact addFrac_clock p _ (by simp)
  · exact addFrac_days p _ (by simp)
  · exact addFrac_days p _ (by simp)
  · exact addFrac_year p
  · exact addFrac_years p _ (by simp)
  · exact addFrac_years p _ (by simp)
  · exact addFrac_years p _ (by simp)

end Pg
