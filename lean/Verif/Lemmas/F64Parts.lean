import Verif.Lemmas.F64Micro
import Verif.Model.DatePart

/-! # Rounding errors of the fractional `date_part` fields -/

namespace Pg
namespace F64

theorem fin_div {x y : Rat} (h : y ≠ 0) : (F64.fin x).div (.fin y) = rnd (x / y) := by
  unfold F64.div; simp only; rw [if_neg h]

theorem fin_add (x y : Rat) : (F64.fin x).add (.fin y) = rnd (x + y) := rfl
theorem fin_mul (x y : Rat) : (F64.fin x).mul (.fin y) = rnd (x * y) := rfl

/-- Rounding with an error given by a bound on the value. -/
theorem rnd_within {q b : Rat} (h : |q| ≤ b) (hb : b ≤ 2 ^ 100) :
    ∃ r, rnd q = .fin r ∧ |r - q| ≤ b / 2 ^ 53 + 1 / 2 ^ 100 := by
  obtain ⟨r, h1, h2⟩ := rnd_near (le_trans h hb)
  exact ⟨r, h1, le_trans h2 (add_le_add_left (div_le_div_of_nonneg_right h (by norm_num)) _)⟩

/-- The `MilliSec` field is within a thousandth of a microsecond of its exact value. -/
theorem partMillis_near {sec fs : Int} (h1 : -60 ≤ sec ∧ sec ≤ 60) (h2 : -1000000 ≤ fs ∧ fs ≤ 1000000) :
    ∃ s, partMillis sec fs = .fin s ∧ |s - ((sec * 1000000 + fs : Int) : Rat) / 1000| ≤ 1 / 1000000 := by
  unfold partMillis
  rw [ofInt_ok (n := sec) (by omega), ofInt_ok (n := fs) (by omega), fin_mul, fin_div (by norm_num)]
  have a1 : (-60 : Rat) ≤ sec := by exact_mod_cast h1.1
  have a2 : (sec : Rat) ≤ 60 := by exact_mod_cast h1.2
  have b1 : (-1000000 : Rat) ≤ fs := by exact_mod_cast h2.1
  have b2 : (fs : Rat) ≤ 1000000 := by exact_mod_cast h2.2
  have e1 : rnd ((sec : Rat) * 1000) = .fin ((sec * 1000 : Int) : Rat) := by
    have := ofInt_ok (n := sec * 1000) (by omega)
    unfold ofInt at this
    rw [← this]; push_cast; rfl
  obtain ⟨r, f1, f2⟩ := rnd_within (q := (fs : Rat) / 1000) (b := 1000)
    (by rw [abs_le]; constructor <;> linarith) (by norm_num)
  norm_num at f2
  rw [abs_le] at f2
  rw [e1, f1, fin_add]
  obtain ⟨s, g1, g2⟩ := rnd_within (q := ((sec * 1000 : Int) : Rat) + r) (b := 61001)
    (by push_cast; rw [abs_le]; constructor <;> linarith) (by norm_num)
  norm_num at g2
  rw [abs_le] at g2
  refine ⟨s, g1, ?_⟩
  rw [abs_le]
  push_cast
  constructor <;> linarith

theorem rnd_of_int {q : Rat} (n : Int) (h : q = (n : Rat)) (hn : -9007199254740992 ≤ n ∧ n ≤ 9007199254740992) :
    rnd q = .fin (n : Rat) := by
  rw [h]; exact ofInt_ok hn

/-- The fraction of a day added by the `Julian` field. -/
theorem julian_near {j a sec fs : Int} (hj : 0 ≤ j ∧ j ≤ 120000000) (ha : 0 ≤ a ∧ a ≤ 86340)
    (h1 : 0 ≤ sec ∧ sec ≤ 59) (h2 : 0 ≤ fs ∧ fs ≤ 999999) :
    ∃ s, (F64.ofInt j).add ((((F64.ofInt a).add (F64.ofInt sec)).add ((F64.ofInt fs).div (.fin 1000000))).div
        (F64.ofInt SECS_PER_DAY)) = .fin s ∧
      |s - (j + (((a + sec) * 1000000 + fs : Int) : Rat) / 86400000000)| ≤ 1 / 50000000 := by
  rw [ofInt_ok (n := j) (by omega), ofInt_ok (n := a) (by omega), ofInt_ok (n := sec) (by omega),
    ofInt_ok (n := fs) (by omega), ofInt_ok (n := SECS_PER_DAY) (by omega), fin_add, fin_div (by norm_num),
    rnd_of_int (a + sec) (by push_cast; rfl) (by omega)]
  have j1 : (0 : Rat) ≤ j := by exact_mod_cast hj.1
  have j2 : (j : Rat) ≤ 120000000 := by exact_mod_cast hj.2
  have a1 : (0 : Rat) ≤ a := by exact_mod_cast ha.1
  have a2 : (a : Rat) ≤ 86340 := by exact_mod_cast ha.2
  have s1 : (0 : Rat) ≤ sec := by exact_mod_cast h1.1
  have s2 : (sec : Rat) ≤ 59 := by exact_mod_cast h1.2
  have b1 : (0 : Rat) ≤ fs := by exact_mod_cast h2.1
  have b2 : (fs : Rat) ≤ 999999 := by exact_mod_cast h2.2
  obtain ⟨r, f1, f2⟩ := rnd_within (q := (fs : Rat) / 1000000) (b := 1)
    (by rw [abs_le]; constructor <;> linarith) (by norm_num)
  norm_num at f2
  rw [abs_le] at f2
  rw [f1, fin_add]
  obtain ⟨s, g1, g2⟩ := rnd_within (q := ((a + sec : Int) : Rat) + r) (b := 86401)
    (by push_cast; rw [abs_le]; constructor <;> linarith) (by norm_num)
  norm_num at g2
  rw [abs_le] at g2
  rw [g1, fin_div (by norm_num)]
  obtain ⟨t, k1, k2⟩ := rnd_within (q := s / ((86400 : Int) : Rat)) (b := 2)
    (by push_cast; rw [abs_le]; constructor <;> linarith) (by norm_num)
  norm_num at k2
  rw [abs_le] at k2
  rw [k1, fin_add]
  obtain ⟨u, l1, l2⟩ := rnd_within (q := (j : Rat) + t) (b := 120000003)
    (by rw [abs_le]; constructor <;> linarith) (by norm_num)
  norm_num at l2
  rw [abs_le] at l2
  refine ⟨u, l1, ?_⟩
  rw [abs_le]
  push_cast
  constructor <;> linarith

/-- Rounding errors of a sum of four terms of which three are integers. -/
theorem sum_near {t y m d : Int} (ht : -9223372036854775808 ≤ t ∧ t ≤ 9223372036854775807)
    (hy : -200000000 ≤ y ∧ y ≤ 200000000) (hm : -12 ≤ m ∧ m ≤ 12) (hd : -2147483648 ≤ d ∧ d ≤ 2147483648) :
    ∃ e, (((((F64.ofInt t).div (.fin 1000000)).add (((F64.fin (1461 / 4)).mul (F64.ofInt SECS_PER_DAY)).mul
        (F64.ofInt y))).add (((F64.ofInt DAYS_PER_MONTH).mul (F64.ofInt SECS_PER_DAY)).mul (F64.ofInt m))).add
        ((F64.ofInt SECS_PER_DAY).mul (F64.ofInt d))) = .fin e ∧
      |e - ((t : Rat) / 1000000 + 31557600 * y + 2592000 * m + 86400 * d)| ≤
        (|(t : Rat)| / 1000000 + 31557600 * |(y : Rat)| + 2592000 * |(m : Rat)| + 86400 * |(d : Rat)|) / 2 ^ 50 := by
  rw [ofInt_ok (n := y) (by omega), ofInt_ok (n := m) (by omega), ofInt_ok (n := d) (by omega),
    ofInt_ok (n := SECS_PER_DAY) (by omega), ofInt_ok (n := DAYS_PER_MONTH) (by omega), fin_mul, fin_mul, fin_mul,
    rnd_of_int 31557600 (by norm_num) (by omega), rnd_of_int 2592000 (by norm_num) (by omega),
    rnd_of_int (86400 * d) (by push_cast; rfl) (by omega), fin_mul, fin_mul,
    rnd_of_int (31557600 * y) (by push_cast; rfl) (by omega), rnd_of_int (2592000 * m) (by push_cast; rfl) (by omega)]
  push_cast
  have t1 : (-9223372036854775808 : Rat) ≤ t := by exact_mod_cast ht.1
  have t2 : (t : Rat) ≤ 9223372036854775807 := by exact_mod_cast ht.2
  have y1 : (-200000000 : Rat) ≤ y := by exact_mod_cast hy.1
  have y2 : (y : Rat) ≤ 200000000 := by exact_mod_cast hy.2
  have m1 : (-12 : Rat) ≤ m := by exact_mod_cast hm.1
  have m2 : (m : Rat) ≤ 12 := by exact_mod_cast hm.2
  have d1 : (-2147483648 : Rat) ≤ d := by exact_mod_cast hd.1
  have d2 : (d : Rat) ≤ 2147483648 := by exact_mod_cast hd.2
  by_cases hz : t = 0 ∧ y = 0 ∧ m = 0 ∧ d = 0
  · obtain ⟨rfl, rfl, rfl, rfl⟩ := hz
    exact ⟨0, by decide +kernel, by norm_num⟩
  -- not all are zero
  obtain ⟨T, hT⟩ : ∃ T, T = |(t : Rat)| := ⟨_, rfl⟩
  obtain ⟨Y, hY⟩ : ∃ Y, Y = |(y : Rat)| := ⟨_, rfl⟩
  obtain ⟨M, hM⟩ : ∃ M, M = |(m : Rat)| := ⟨_, rfl⟩
  obtain ⟨D, hD⟩ : ∃ D, D = |(d : Rat)| := ⟨_, rfl⟩
  have hbig : 1 ≤ T + Y + M + D := by
    have hp : ∀ n : Int, n ≠ 0 → (1 : Rat) ≤ |(n : Rat)| := fun n hn => by
      exact_mod_cast Int.one_le_abs hn
    have n1 := abs_nonneg (t : Rat)
    have n2 := abs_nonneg (y : Rat)
    have n3 := abs_nonneg (m : Rat)
    have n4 := abs_nonneg (d : Rat)
    rw [← hT] at n1; rw [← hY] at n2; rw [← hM] at n3; rw [← hD] at n4
    by_cases z1 : t = 0
    · by_cases z2 : y = 0
      · by_cases z3 : m = 0
        · have := hp d (fun z4 => hz ⟨z1, z2, z3, z4⟩); rw [← hD] at this; linarith
        · have := hp m z3; rw [← hM] at this; linarith
      · have := hp y z2; rw [← hY] at this; linarith
    · have := hp t z1; rw [← hT] at this; linarith
  have T0 : 0 ≤ T := by rw [hT]; exact abs_nonneg _
  have Y0 : 0 ≤ Y := by rw [hY]; exact abs_nonneg _
  have M0 : 0 ≤ M := by rw [hM]; exact abs_nonneg _
  have D0 : 0 ≤ D := by rw [hD]; exact abs_nonneg _
  have Tb : T ≤ 9223372036854775808 := by rw [hT, abs_le]; constructor <;> linarith
  have Yb : Y ≤ 200000000 := by rw [hY, abs_le]; constructor <;> linarith
  have Mb : M ≤ 12 := by rw [hM, abs_le]; constructor <;> linarith
  have Db : D ≤ 2147483648 := by rw [hD, abs_le]; constructor <;> linarith
  have tT : -T ≤ t ∧ (t : Rat) ≤ T := by rw [hT]; exact abs_le.1 le_rfl
  have yY : -Y ≤ y ∧ (y : Rat) ≤ Y := by rw [hY]; exact abs_le.1 le_rfl
  have mM : -M ≤ m ∧ (m : Rat) ≤ M := by rw [hM]; exact abs_le.1 le_rfl
  have dD : -D ≤ d ∧ (d : Rat) ≤ D := by rw [hD]; exact abs_le.1 le_rfl
  rw [← hT, ← hY, ← hM, ← hD]
  obtain ⟨tT1, tT2⟩ := tT
  obtain ⟨yY1, yY2⟩ := yY
  obtain ⟨mM1, mM2⟩ := mM
  obtain ⟨dD1, dD2⟩ := dD
  -- the steps
  obtain ⟨a, a1, a2⟩ := rnd_within (q := (t : Rat)) (b := T) (by rw [hT]) (by norm_num; linarith)
  norm_num at a2
  rw [abs_le] at a2
  have ha : F64.ofInt t = .fin a := a1
  rw [ha, fin_div (by norm_num)]
  obtain ⟨b, b1, b2⟩ := rnd_within (q := a / 1000000) (b := (T + T / 1000000000000 + 1 / 1000000000000) / 1000000)
    (by rw [abs_le]; constructor <;> linarith) (by norm_num; linarith)
  norm_num at b2
  rw [abs_le] at b2
  rw [b1, fin_add]
  obtain ⟨c, c1, c2⟩ := rnd_within (q := b + 31557600 * (y : Rat))
    (b := (T + T / 100000000000 + 1 / 100000000000) / 1000000 + 31557600 * Y)
    (by rw [abs_le]; constructor <;> linarith) (by norm_num; linarith)
  norm_num at c2
  rw [abs_le] at c2
  rw [c1, fin_add]
  obtain ⟨e, e1, e2⟩ := rnd_within (q := c + 2592000 * (m : Rat))
    (b := (T + T / 100000000000 + 1 / 100000000000) / 1000000 + 31557600 * Y + 2592000 * M +
      (T + Y + M + D) / 10000000)
    (by rw [abs_le]; constructor <;> linarith) (by norm_num; linarith)
  norm_num at e2
  rw [abs_le] at e2
  rw [e1, fin_add]
  obtain ⟨f, f1, f2⟩ := rnd_within (q := e + 86400 * (d : Rat))
    (b := (T + T / 100000000000 + 1 / 100000000000) / 1000000 + 31557600 * Y + 2592000 * M + 86400 * D +
      (T + Y + M + D) / 5000000)
    (by rw [abs_le]; constructor <;> linarith) (by norm_num; linarith)
  norm_num at f2
  rw [abs_le] at f2
  refine ⟨f, f1, ?_⟩
  norm_num
  rw [abs_le]
  constructor <;> linarith

end F64
end Pg
