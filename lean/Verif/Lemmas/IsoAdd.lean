import Verif.Lemmas.IsoNumbers

/-! # Adding the items of ISO 8601 intervals -/

namespace Pg
open Spec F64

variable {p : Profile}

/-- What an item does to the fields. -/
def isoAdd (p : Profile) (u : IvUnit) (n : Int) (fv : F64) : St TmF Unit :=
  match u with
  | .year => do addYear p n; addYearFrac p fv
  | .month => do addMon p n; adjustFractDays p fv DAYS_PER_MONTH
  | .week => do let v ← St.lift (chk32 p (n * 7)); addMday p v; adjustFractDays p fv 7
  | .day => do addMday p n; adjustFractSeconds p fv SECS_PER_DAY
  | .hour => do addHour p n; adjustFractSeconds p fv SECS_PER_HOUR
  | .minute => do addMin p n; adjustFractSeconds p fv SECS_PER_MINUTE
  | _ => do addSec p n; adjustFractSeconds p fv 1

/-- The fraction of an item. -/
def IsoFrac (u : IvUnit) (k : Int) (r : Rat) : Prop :=
  k = 0 ∧ r = 0 ∨ 0 < k ∧ k < 10000000 ∧
    ((u = .day ∨ u = .hour ∨ u = .minute) ∧ |r - (k : Rat) / 10000000| ≤ 10001 / 2 ^ 52 ∨
      u = .second ∧ |r - (k : Rat) / 10000000| ≤ 1000001 / 2 ^ 52 ∨
      u = .week ∧ |r - (k : Rat) / 10000000| ≤ 3001 / 2 ^ 52 ∨
      u = .month ∧ |r - (k : Rat) / 10000000| ≤ 701 / 2 ^ 52 ∨
      u = .year ∧ |r - (k : Rat) / 10000000| ≤ 10001 / 2 ^ 52 ∧ ∀ j : Nat, k = j * 2500000 → r = (j : Rat) / 4)

/-- The fields after an item. -/
def IsoAdds (p : Profile) (u : IvUnit) : Prop := ∀ {n k : Int} {r : Rat} {t : TmF} {M M' D D' W W' S S' : Int},
    QInv t M M' D D' W W' S S' → IsoFrac u k r → 0 ≤ n → n ≤ 2147483647 →
    M' + n * u.months ≤ 2100000000 → D' + n * u.days ≤ 2100000000 →
    W' + n * wholeMinutes u ≤ 2100000000 → S' + n * subMinute u ≤ 2100000000000000 →
    ∃ t' m d s, isoAdd p u n (.fin r) t = (.ok (), t') ∧ IsoFractionIs u k m d s ∧
      QInv t' (M + (n * u.months + m)) (M' + n * u.months + 100) (D + (n * u.days + d)) (D' + n * u.days + 100)
        (W + n * wholeMinutes u) (W' + n * wholeMinutes u) (S + (n * subMinute u + s))
        (S' + n * subMinute u + 300000000000)

theorem zero_year : ((F64.fin 0).mul (F64.ofInt 12)).toI32 = 0 := by decide +kernel

/-- The months of a fraction of a year. -/
theorem iso_months {k : Int} {r : Rat} (hk : 0 < k ∧ k < 10000000) (he : |r - (k : Rat) / 10000000| ≤ 10001 / 2 ^ 52)
    (hq : ∀ j : Nat, k = j * 2500000 → r = (j : Rat) / 4) :
    ((F64.fin r).mul (F64.ofInt 12)).toI32 = k * 12 / 10000000 := by
  have h1 : (1 : Rat) ≤ k := by exact_mod_cast hk.1
  have h2 : (k : Rat) ≤ 9999999 := by exact_mod_cast (show k ≤ 9999999 by omega)
  norm_num at he
  have hb : |r * (12 : Int)| ≤ 13 := by
    push_cast
    rw [abs_le] at he ⊢; constructor <;> linarith
  obtain ⟨y, hy, hye⟩ := rnd_within hb (by norm_num)
  norm_num at hye
  have hyb : |y| ≤ 2000000000 := by
    push_cast at hb
    rw [abs_le] at hye hb ⊢; constructor <;> linarith
  rw [F64.ofInt_ok (by omega), fin_mul, hy, toI32_fin hyb]
  by_cases hm : k * 12 % 10000000 = 0
  · obtain ⟨j, hj0, hj⟩ := whole_months hk hm
    have hr := hq j hj
    have e : r * ((12 : Int) : Rat) = ((j * 3 : Int) : Rat) := by rw [hr]; push_cast; ring
    have e2 : -9007199254740992 ≤ (j * 3 : Int) ∧ (j * 3 : Int) ≤ 9007199254740992 := by clear hm hj hr e hq; omega
    rw [e, rnd_of_int _ rfl e2, F64.fin.injEq] at hy
    rw [← hy, truncQ_int, hj]
    exact whole_months_div j
  · refine trunc_apart (by omega) ?_ hm
    push_cast
    rw [abs_le] at hye he ⊢
    constructor <;> linarith

/-- The days and microseconds of a fraction of a week or month. -/
theorem iso_part_days {k c n e : Int} {r B y : Rat} (hk : 0 < k ∧ k < 10000000) (he : |r - (k : Rat) / 10000000| ≤ B)
    (hc : c = 7 ∧ B = 3001 / 2 ^ 52 ∨ c = 30 ∧ B = 701 / 2 ^ 52)
    (hT : |((n * 86400000000 + e : Int) : Rat) - r * c * 86400000000| ≤ 1 / 2 + 1 / 40)
    (hy : |y - r * c| ≤ 1 / 100000000000) (ht : truncQ y = n) :
    n * 86400000000 + e = k * c * 8640 ∧
      (n = k * c / 10000000 ∨ k * c % 10000000 = 0 ∧ n = k * c / 10000000 - 1) := by
  have hB : B * c * 86400000000 ≤ 41 / 100 := by rcases hc with ⟨rfl, rfl⟩ | ⟨rfl, rfl⟩ <;> norm_num
  have c1 : (0 : Rat) < c := by exact_mod_cast (show 0 < c by omega)
  have hd : |r * c - (k : Rat) * c / 10000000| ≤ B * c := by
    rw [show r * c - (k : Rat) * c / 10000000 = (r - k / 10000000) * c by ring, abs_mul, abs_of_pos c1]
    exact mul_le_mul_of_nonneg_right he c1.le
  have hd2 : |r * c * 86400000000 - ((k * c * 8640 : Int) : Rat)| ≤ 41 / 100 := by
    rw [show r * c * 86400000000 - ((k * c * 8640 : Int) : Rat) = (r * c - (k : Rat) * c / 10000000) * 86400000000 by
      push_cast; ring, abs_mul, abs_of_pos (show (0 : Rat) < 86400000000 by norm_num)]
    exact le_trans (mul_le_mul_of_nonneg_right hd (by norm_num)) hB
  constructor
  · rw [abs_le] at hT hd2
    generalize k * c * 8640 = x at hd2
    generalize n * 86400000000 + e = z at hT
    have a : ((-1 : Int) : Rat) < ((z - x : Int) : Rat) := by push_cast; linarith
    have b : ((z - x : Int) : Rat) < (1 : Int) := by push_cast; linarith
    have a' : -1 < z - x := by exact_mod_cast a
    have b' : z - x < 1 := by exact_mod_cast b
    omega
  · rw [← ht]
    refine trunc_near (by rcases hc with ⟨rfl, -⟩ | ⟨rfl, -⟩ <;> omega) ?_
    have : B * c ≤ 1 / 10000000000 := by linarith
    push_cast
    rw [abs_le] at hy hd ⊢
    constructor <;> linarith

theorem isoAdd_date {u : IvUnit} (hu : u = .year ∨ u = .month ∨ u = .week) : IsoAdds p u := by
  intro n k r t M M' D D' W W' S S' h hf n0 hn hM hD hW hS
  obtain ⟨tm, f⟩ := t
  obtain ⟨m, m', d, d', w, w', s, s'⟩ := h
  rcases hf with ⟨rfl, rfl⟩ | ⟨k0, k1, hb⟩
  · rcases hu with rfl | rfl | rfl <;>
      simp only [IvUnit.months, IvUnit.days, wholeMinutes, subMinute, Int.mul_zero, Int.mul_one, Int.add_zero, Abs2]
        at hM hD hW hS m m' d d' w w' s s'
    · refine ⟨({ tm with year := tm.year + n }, f), 0, 0, 0, ?_, by simp [IsoFractionIs, FractionIs], ?_⟩
      · simp only [isoAdd, addYear, addYearFrac, addMon, zero_year, St.bind_run, St.get_run, St.lift_run, St.mod_run,
          Int.add_zero, chk32_ok (show In32 (tm.year + n) by unfold In32; omega),
          chk32_ok (show In32 tm.mon by unfold In32; omega)]
      · constructor <;> simp only [IvUnit.months, IvUnit.days, wholeMinutes, subMinute, Int.mul_zero, Int.mul_one,
          Int.add_zero, Abs2] <;> omega
    · refine ⟨({ tm with mon := tm.mon + n }, f), 0, 0, 0, ?_, by simp [IsoFractionIs], ?_⟩
      · simp only [isoAdd, addMon, adjustFractDays, if_true, St.bind_run, St.get_run, St.lift_run, St.mod_run, St.pure_run,
          chk32_ok (show In32 (tm.mon + n) by unfold In32; omega)]
      · constructor <;> simp only [IvUnit.months, IvUnit.days, wholeMinutes, subMinute, Int.mul_zero, Int.mul_one,
          Int.add_zero, Abs2] <;> omega
    · refine ⟨({ tm with mday := tm.mday + n * 7 }, f), 0, 0, 0, ?_, by simp [IsoFractionIs, FractionIs], ?_⟩
      · simp only [isoAdd, addMday, adjustFractDays, if_true, St.bind_run, St.get_run, St.lift_run, St.mod_run, St.pure_run,
          chk32_ok (show In32 (n * 7) by unfold In32; omega), chk32_ok (show In32 (tm.mday + n * 7) by unfold In32; omega)]
      · constructor <;> simp only [IvUnit.months, IvUnit.days, wholeMinutes, subMinute, Int.mul_zero, Int.mul_one,
          Int.add_zero, Abs2] <;> omega
  have hk1 : (1 : Rat) ≤ k := by exact_mod_cast k0
  have hk2 : (k : Rat) ≤ 9999999 := by exact_mod_cast (show k ≤ 9999999 by omega)
  rcases hu with rfl | rfl | rfl <;>
    simp only [reduceCtorEq, false_and, false_or, or_false, or_self, true_and] at hb <;>
    simp only [IvUnit.months, IvUnit.days, wholeMinutes, subMinute, Int.mul_zero, Int.mul_one, Int.add_zero, Abs2]
      at hM hD hW hS m m' d d' w w' s s'
  · have hi := iso_months ⟨k0, k1⟩ hb.1 hb.2
    have hq : 0 ≤ k * 12 / 10000000 ∧ k * 12 / 10000000 ≤ 12 := by omega
    generalize hx' : k * 12 / 10000000 = dd at hi hq
    refine ⟨({ tm with year := tm.year + n, mon := tm.mon + dd }, f), dd, 0, 0, ?_, ⟨hx'.symm, rfl, rfl⟩, ?_⟩
    · simp only [isoAdd, addYear, addYearFrac, addMon, hi, St.bind_run, St.get_run, St.lift_run, St.mod_run,
        chk32_ok (show In32 (tm.year + n) by unfold In32; omega),
        chk32_ok (show In32 (tm.mon + dd) by unfold In32; omega)]
    · clear hx' hi
      constructor <;> simp only [IvUnit.months, IvUnit.days, wholeMinutes, subMinute, Int.mul_zero, Int.mul_one,
        Int.add_zero, Abs2] <;> omega
  · have hb' := hb
    norm_num at hb'
    rw [abs_le] at hb'
    obtain ⟨dd, a, b, h1, h2, ⟨y, h3, h4⟩, h5, h6, h7, h8, h9, h10⟩ := adjustFractDays_round (p := p) (scale := 30) (x := r)
      (t := ({ tm with mon := tm.mon + n }, f)) (by rw [abs_le]; constructor <;> linarith) (by intro h; rw [h] at hb'; linarith)
      (by omega) (by simp only; omega) (by simp only; omega) (by simp only; omega)
    obtain ⟨r1, r2⟩ := iso_part_days (c := 30) ⟨k0, k1⟩ hb (Or.inr ⟨rfl, rfl⟩) h2 h3 h4
    refine ⟨({ tm with mon := tm.mon + n, mday := tm.mday + dd, sec := tm.sec + a }, f + b), 0, dd, a * 1000000 + b, ?_,
      ⟨rfl, r1, ?_⟩, ?_⟩
    · simp only [isoAdd, addMon, St.bind_run, St.get_run, St.lift_run, St.mod_run,
        chk32_ok (show In32 (tm.mon + n) by unfold In32; omega)]
      exact h1
    · rcases r2 with r2 | ⟨r2, r3⟩
      · exact Or.inl r2
      · exact Or.inr ⟨r2, k0, r3⟩
    · clear r1 r2
      constructor <;> simp only [IvUnit.months, IvUnit.days, wholeMinutes, subMinute, Int.mul_zero, Int.mul_one,
        Int.add_zero, Abs2] <;> omega
  · have hb' := hb
    norm_num at hb'
    rw [abs_le] at hb'
    obtain ⟨dd, a, b, h1, h2, ⟨y, h3, h4⟩, h5, h6, h7, h8, h9, h10⟩ := adjustFractDays_round (p := p) (scale := 7) (x := r)
      (t := ({ tm with mday := tm.mday + n * 7 }, f)) (by rw [abs_le]; constructor <;> linarith)
      (by intro h; rw [h] at hb'; linarith) (by omega) (by simp only; omega) (by simp only; omega) (by simp only; omega)
    obtain ⟨r1, r2⟩ := iso_part_days (c := 7) ⟨k0, k1⟩ hb (Or.inl ⟨rfl, rfl⟩) h2 h3 h4
    have r3 : dd = k * 7 / 10000000 := by omega
    refine ⟨({ tm with mday := tm.mday + n * 7 + dd, sec := tm.sec + a }, f + b), 0, dd, a * 1000000 + b, ?_,
      ⟨rfl, r3, by omega⟩, ?_⟩
    · simp only [isoAdd, addMday, St.bind_run, St.get_run, St.lift_run, St.mod_run,
        chk32_ok (show In32 (n * 7) by unfold In32; omega), chk32_ok (show In32 (tm.mday + n * 7) by unfold In32; omega)]
      exact h1
    · clear r1 r2 r3
      constructor <;> simp only [IvUnit.months, IvUnit.days, wholeMinutes, subMinute, Int.mul_zero, Int.mul_one,
        Int.add_zero, Abs2] <;> omega

/-- Seconds in a unit. -/
def isoScale : IvUnit → Int
  | .day => 86400 | .hour => 3600 | .minute => 60
  | _ => 1

theorem isoFrac_micros {u : IvUnit} (hu : u = .day ∨ u = .hour ∨ u = .minute ∨ u = .second) {k : Int} {r : Rat}
    (hf : IsoFrac u k r) {e : Int}
    (he : |(e : Rat) - r * isoScale u * 1000000| ≤ 1 / 2 + 1 / 50) : IsoFractionIs u k 0 0 e := by
  rcases hf with ⟨rfl, rfl⟩ | ⟨k0, k1, hb⟩
  · have : e = 0 := by
      rw [abs_le] at he
      have a : ((-1 : Int) : Rat) < e := by push_cast; linarith
      have b : (e : Rat) < (1 : Int) := by push_cast; linarith
      have a' : -1 < e := by exact_mod_cast a
      have b' : e < 1 := by exact_mod_cast b
      omega
    subst this
    rcases hu with rfl | rfl | rfl | rfl <;> simp [IsoFractionIs, FractionIs]
  · rw [abs_le] at he
    rcases hu with rfl | rfl | rfl | rfl <;> simp only [isoScale] at he <;> simp only [IsoFractionIs, FractionIs, true_and] <;>
      simp only [reduceCtorEq, false_and, false_or, or_false, or_self, true_and] at hb
    · have hr : |r - (k : Rat) / 10000000| ≤ 10001 / 2 ^ 52 := by
        simpa using hb
      norm_num at hr
      rw [abs_le] at hr
      push_cast at he
      have a : ((-1 : Int) : Rat) < ((e - k * 8640 : Int) : Rat) := by push_cast; linarith
      have b : ((e - k * 8640 : Int) : Rat) < (1 : Int) := by push_cast; linarith
      have a' : -1 < e - k * 8640 := by exact_mod_cast a
      have b' : e - k * 8640 < 1 := by exact_mod_cast b
      omega
    · have hr : |r - (k : Rat) / 10000000| ≤ 10001 / 2 ^ 52 := by
        simpa using hb
      norm_num at hr
      rw [abs_le] at hr
      push_cast at he
      have a : ((-1 : Int) : Rat) < ((e - k * 360 : Int) : Rat) := by push_cast; linarith
      have b : ((e - k * 360 : Int) : Rat) < (1 : Int) := by push_cast; linarith
      have a' : -1 < e - k * 360 := by exact_mod_cast a
      have b' : e - k * 360 < 1 := by exact_mod_cast b
      omega
    · have hr : |r - (k : Rat) / 10000000| ≤ 10001 / 2 ^ 52 := by
        simpa using hb
      norm_num at hr
      rw [abs_le] at hr
      push_cast at he
      have a : ((-1 : Int) : Rat) < ((e - k * 6 : Int) : Rat) := by push_cast; linarith
      have b : ((e - k * 6 : Int) : Rat) < (1 : Int) := by push_cast; linarith
      have a' : -1 < e - k * 6 := by exact_mod_cast a
      have b' : e - k * 6 < 1 := by exact_mod_cast b
      omega
    · have hr : |r - (k : Rat) / 10000000| ≤ 1000001 / 2 ^ 52 := by
        simpa using hb
      norm_num at hr
      rw [abs_le] at hr
      push_cast at he
      have a : ((-6 : Int) : Rat) < ((e * 10 - k : Int) : Rat) := by push_cast; linarith
      have b : ((e * 10 - k : Int) : Rat) < (6 : Int) := by push_cast; linarith
      have a' : -6 < e * 10 - k := by exact_mod_cast a
      have b' : e * 10 - k < 6 := by exact_mod_cast b
      omega

theorem isoAdd_clock {u : IvUnit} (hu : u = .day ∨ u = .hour ∨ u = .minute ∨ u = .second) : IsoAdds p u := by
  intro n k r t M M' D D' W W' S S' h hf n0 hn hM hD hW hS
  obtain ⟨tm, f⟩ := t
  obtain ⟨m, m', d, d', w, w', s, s'⟩ := h
  have hr2 : |r| ≤ 2 := by
    rcases hf with ⟨-, rfl⟩ | ⟨k0, k1, hb⟩
    · norm_num
    · have hr : |r - (k : Rat) / 10000000| ≤ 1000001 / 2 ^ 52 := by
        rcases hb with ⟨-, h⟩ | ⟨-, h⟩ | ⟨-, h⟩ | ⟨-, h⟩ | ⟨-, h, -⟩
        · exact le_trans h (by norm_num)
        · exact h
        · exact le_trans h (by norm_num)
        · exact le_trans h (by norm_num)
        · exact le_trans h (by norm_num)
      have h2 : (0 : Rat) ≤ k := by exact_mod_cast k0.le
      have h3 : (k : Rat) ≤ 10000000 := by exact_mod_cast k1.le
      norm_num at hr
      rw [abs_le] at hr ⊢
      constructor <;> linarith
  have hfr := fun e => isoFrac_micros (e := e) hu hf
  have hsc : 0 < isoScale u ∧ isoScale u ≤ 86400 := by rcases hu with rfl | rfl | rfl | rfl <;> decide
  rcases hu with rfl | rfl | rfl | rfl <;> simp only [isoScale] at hsc hfr <;>
    simp only [IvUnit.months, IvUnit.days, wholeMinutes, subMinute, Int.mul_zero, Int.mul_one, Int.add_zero, Abs2]
      at hM hD hW hS m m' d d' w w' s s'
  · obtain ⟨a, b, h1, h2, h3, h4, h5, h6⟩ := adjustFractSeconds_round (p := p) (scale := 86400)
      (t := ({ tm with mday := tm.mday + n }, f)) hr2 hsc (by simp only; omega) (by simp only; omega)
    refine ⟨({ tm with mday := tm.mday + n, sec := tm.sec + a }, f + b), 0, 0, a * 1000000 + b, ?_, hfr _ h2, ?_⟩
    · simp only [isoAdd, addMday, St.bind_run, St.get_run, St.lift_run, St.mod_run,
        chk32_ok (show In32 (tm.mday + n) by unfold In32; omega)]
      exact h1
    · constructor <;> simp only [IvUnit.months, IvUnit.days, wholeMinutes, subMinute, Int.mul_zero, Int.mul_one,
        Int.add_zero, Abs2] <;> omega
  · obtain ⟨a, b, h1, h2, h3, h4, h5, h6⟩ := adjustFractSeconds_round (p := p) (scale := 3600)
      (t := ({ tm with hour := tm.hour + n }, f)) hr2 hsc (by simp only; omega) (by simp only; omega)
    refine ⟨({ tm with hour := tm.hour + n, sec := tm.sec + a }, f + b), 0, 0, a * 1000000 + b, ?_, hfr _ h2, ?_⟩
    · simp only [isoAdd, addHour, St.bind_run, St.get_run, St.lift_run, St.mod_run,
        chk32_ok (show In32 (tm.hour + n) by unfold In32; omega)]
      exact h1
    · constructor <;> simp only [IvUnit.months, IvUnit.days, wholeMinutes, subMinute, Int.mul_zero, Int.mul_one,
        Int.add_zero, Abs2] <;> omega
  · obtain ⟨a, b, h1, h2, h3, h4, h5, h6⟩ := adjustFractSeconds_round (p := p) (scale := 60)
      (t := ({ tm with min := tm.min + n }, f)) hr2 hsc (by simp only; omega) (by simp only; omega)
    refine ⟨({ tm with min := tm.min + n, sec := tm.sec + a }, f + b), 0, 0, a * 1000000 + b, ?_, hfr _ h2, ?_⟩
    · simp only [isoAdd, addMin, St.bind_run, St.get_run, St.lift_run, St.mod_run,
        chk32_ok (show In32 (tm.min + n) by unfold In32; omega)]
      exact h1
    · constructor <;> simp only [IvUnit.months, IvUnit.days, wholeMinutes, subMinute, Int.mul_zero, Int.mul_one,
        Int.add_zero, Abs2] <;> omega
  · obtain ⟨a, b, h1, h2, h3, h4, h5, h6⟩ := adjustFractSeconds_round (p := p) (scale := 1)
      (t := ({ tm with sec := tm.sec + n }, f)) hr2 hsc (by simp only; omega) (by simp only; omega)
    refine ⟨({ tm with sec := tm.sec + n + a }, f + b), 0, 0, a * 1000000 + b, ?_, hfr _ h2, ?_⟩
    · simp only [isoAdd, addSec, St.bind_run, St.get_run, St.lift_run, St.mod_run,
        chk32_ok (show In32 (tm.sec + n) by unfold In32; omega)]
      exact h1
    · constructor <;> simp only [IvUnit.months, IvUnit.days, wholeMinutes, subMinute, Int.mul_zero, Int.mul_one,
        Int.add_zero, Abs2] <;> omega

theorem isoAdd_any (p : Profile) {u : IvUnit} (hu : u ∈ isoDateUnits ∨ u ∈ isoTimeUnits) : IsoAdds p u := by
  have : (u = .year ∨ u = .month ∨ u = .week) ∨ (u = .day ∨ u = .hour ∨ u = .minute ∨ u = .second) := by
    rcases hu with hu | hu <;> simp [isoDateUnits, isoTimeUnits] at hu <;> tauto
  rcases this with h | h
  · exact @isoAdd_date p u h
  · exact @isoAdd_clock p u h

end Pg
