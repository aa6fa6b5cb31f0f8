import Verif.Lemmas.IntervalIso
import Verif.Lemmas.FractionsRun
import Verif.Spec.IsoInterval

/-! # The numbers of ISO 8601 intervals -/

namespace Pg
open Spec F64

variable {p : Profile}

/-- A fraction of a unit, in seconds and microseconds, rounded. -/
theorem adjustFractSeconds_round {x : Rat} {scale : Int} (hx : |x| ≤ 2) (hs : 0 < scale ∧ scale ≤ 86400)
    {t : TmF} (h1 : -2147000000 ≤ t.1.sec ∧ t.1.sec ≤ 2147000000)
    (h2 : -4000000000000000000 ≤ t.2 ∧ t.2 ≤ 4000000000000000000) :
    ∃ a b, adjustFractSeconds p (.fin x) scale t = (.ok (), ({ t.1 with sec := t.1.sec + a }, t.2 + b)) ∧
      |((a * 1000000 + b : Int) : Rat) - x * scale * 1000000| ≤ 1 / 2 + 1 / 50 ∧
      -200000 ≤ a ∧ a ≤ 200000 ∧ -2000000 ≤ b ∧ b ≤ 2000000 := by
  unfold adjustFractSeconds
  by_cases h0 : x = 0
  · subst h0
    rw [if_pos rfl]
    refine ⟨0, 0, ?_, by norm_num, by omega, by omega, by omega, by omega⟩
    simp
    rfl
  · rw [if_neg (by simpa using h0)]
    have s1 : (0 : Rat) < scale := by exact_mod_cast hs.1
    have s2 : (scale : Rat) ≤ 86400 := by exact_mod_cast hs.2
    have hb : |x * scale| ≤ 172800 := by
      rw [abs_mul, abs_of_pos s1]
      calc |x| * scale ≤ 2 * 86400 := by
            apply mul_le_mul hx s2 s1.le (by norm_num)
        _ = 172800 := by norm_num
    obtain ⟨y, hy, he⟩ := rnd_within hb (by norm_num)
    norm_num at he
    have hyb : |y| ≤ 172801 := by rw [abs_le] at hb he ⊢; constructor <;> linarith
    have hmul : (F64.fin x).mul (F64.ofInt scale) = .fin y := by
      rw [F64.ofInt_ok (by omega), fin_mul, hy]
    have hi : (F64.fin y).toI32 = truncQ y := toI32_fin (le_trans hyb (by norm_num))
    obtain ⟨a, ha⟩ : ∃ a, a = truncQ y := ⟨_, rfl⟩
    have ht := truncQ_err y
    rw [← ha] at ht hi
    have a1 : -200000 < a ∧ a < 200000 := by
      rw [abs_lt] at ht
      rw [abs_le] at hyb
      have u : ((-200000 : Int) : Rat) < a := by push_cast; linarith
      have v : (a : Rat) < (200000 : Int) := by push_cast; linarith
      exact ⟨by exact_mod_cast u, by exact_mod_cast v⟩
    have hd : |y + -(a : Rat)| ≤ 1 := by
      rw [abs_lt] at ht
      rw [abs_le]; constructor <;> linarith
    obtain ⟨r, hr, hre⟩ := rnd_within hd (by norm_num)
    norm_num at hre
    have hsub : (F64.fin y).sub (F64.ofInt a) = .fin r := by
      rw [F64.ofInt_ok (by omega)]
      exact hr
    have hm := roundMicros_near (x := r) (by rw [abs_le] at hd hre ⊢; constructor <;> linarith)
    obtain ⟨b, hb'⟩ : ∃ b, b = roundMicros (.fin r) := ⟨_, rfl⟩
    rw [← hb'] at hm
    have hsum : |((a * 1000000 + b : Int) : Rat) - x * scale * 1000000| ≤ 1 / 2 + 1 / 50 := by
      push_cast
      rw [abs_le] at hm hre he ⊢
      constructor <;> linarith
    have b1 : -2000000 < b ∧ b < 2000000 := by
      rw [abs_le] at hm hre hd
      have u : ((-2000000 : Int) : Rat) < b := by push_cast; linarith
      have v : (b : Rat) < (2000000 : Int) := by push_cast; linarith
      exact ⟨by exact_mod_cast u, by exact_mod_cast v⟩
    refine ⟨a, b, ?_, hsum, by omega, by omega, by omega, by omega⟩
    simp only [hmul, hi, hsub, ← hb']
    rw [St.get_bind, checked32, if_pos (by unfold In32; omega)]
    simp only
    rw [St.mod_bind, chk64_ok (show In64 (t.2 + b) by unfold In64; omega), St.lift_ok_bind]
    rfl

/-- A fraction of a unit, in days, seconds and microseconds, rounded. -/
theorem adjustFractDays_round {x : Rat} {scale : Int} (hx : |x| ≤ 1) (h0 : x ≠ 0) (hs : 0 < scale ∧ scale ≤ 30)
    {t : TmF} (h1 : -2147000000 ≤ t.1.sec ∧ t.1.sec ≤ 2147000000)
    (h2 : -4000000000000000000 ≤ t.2 ∧ t.2 ≤ 4000000000000000000)
    (h3 : -2147000000 ≤ t.1.mday ∧ t.1.mday ≤ 2147000000) :
    ∃ n a b, adjustFractDays p (.fin x) scale t =
        (.ok (), ({ t.1 with mday := t.1.mday + n, sec := t.1.sec + a }, t.2 + b)) ∧
      |((n * 86400000000 + (a * 1000000 + b) : Int) : Rat) - x * scale * 86400000000| ≤ 1 / 2 + 1 / 40 ∧
      (∃ y, |y - x * scale| ≤ 1 / 100000000000 ∧ truncQ y = n) ∧ -40 < n ∧ n < 40 ∧
      -200000 ≤ a ∧ a ≤ 200000 ∧ -2000000 ≤ b ∧ b ≤ 2000000 := by
  unfold adjustFractDays
  rw [if_neg (by simpa using h0)]
  have s1 : (0 : Rat) < scale := by exact_mod_cast hs.1
  have s2 : (scale : Rat) ≤ 30 := by exact_mod_cast hs.2
  have hb : |x * scale| ≤ 30 := by
    rw [abs_mul, abs_of_pos s1]
    calc |x| * scale ≤ 1 * 30 := by
          apply mul_le_mul hx s2 s1.le (by norm_num)
      _ = 30 := by norm_num
  obtain ⟨y, hy, he⟩ := rnd_within hb (by norm_num)
  norm_num at he
  have hyb : |y| ≤ 31 := by rw [abs_le] at hb he ⊢; constructor <;> linarith
  have hmul : (F64.fin x).mul (F64.ofInt scale) = .fin y := by
    rw [F64.ofInt_ok (by omega), fin_mul, hy]
  have hi : (F64.fin y).toI32 = truncQ y := toI32_fin (le_trans hyb (by norm_num))
  obtain ⟨n, hn⟩ : ∃ n, truncQ y = n := ⟨_, rfl⟩
  have ht := truncQ_err y
  rw [hn] at ht hi
  have a1 : -40 < n ∧ n < 40 := by
    rw [abs_lt] at ht
    rw [abs_le] at hyb
    have u : ((-40 : Int) : Rat) < n := by push_cast; linarith
    have v : (n : Rat) < (40 : Int) := by push_cast; linarith
    exact ⟨by exact_mod_cast u, by exact_mod_cast v⟩
  have hd : |y + -(n : Rat)| ≤ 1 := by
    rw [abs_lt] at ht
    rw [abs_le]; constructor <;> linarith
  obtain ⟨r, hr, hre⟩ := rnd_within hd (by norm_num)
  norm_num at hre
  have hsub : (F64.fin y).sub (F64.ofInt n) = .fin r := by
    rw [F64.ofInt_ok (by omega)]
    exact hr
  obtain ⟨a, b, hab, r1, r2, r3, r4, r5⟩ := adjustFractSeconds_round (p := p) (x := r) (scale := 86400)
    (by rw [abs_le] at hd hre ⊢; constructor <;> linarith) (by omega)
    (t := ({ t.1 with mday := t.1.mday + n }, t.2)) h1 h2
  refine ⟨n, a, b, ?_, ?_, ⟨y, ?_, hn⟩, a1.1, a1.2, r2, r3, r4, r5⟩
  · simp only [hmul, hi, hsub]
    rw [St.get_bind, checked32, if_pos (by unfold In32; omega)]
    simp only
    rw [St.mod_bind]
    exact hab
  · push_cast at r1 ⊢
    rw [abs_le] at hre he r1 ⊢
    constructor <;> linarith
  · rw [abs_le] at he ⊢; constructor <;> linarith

/-- A run of digits in front of something else. -/
theorem str2d_digits {ds rest : Bytes} (hd : Digits ds) (ne : ds ≠ []) (hl : ds.length ≤ 10) (hr : Stops isDigit rest) :
    str2d (ds ++ rest) = (if (fracPart rest).1.length > 7 then .err .overflow
      else if (fracPart rest).1.isEmpty then .ok (F64.ofInt (value ds : Int), (fracPart rest).2)
      else .ok ((F64.ofInt (foldDigits (value ds : Int) (fracPart rest).1)).div
        (F64.ofInt (10 ^ (fracPart rest).1.length)), (fracPart rest).2)) := by
  obtain ⟨x, t, e, hx, hsp, h43, h45⟩ := digit_head (r := rest) hd ne
  unfold str2d
  have e0 : (ds ++ rest).dropWhile isSpace = ds ++ rest := by
    rw [e]; exact dropWhile_stop (Stops.cons hsp)
  simp only [e0]
  rw [if_neg (by simp [ne])]
  have e1 : extractSign (ds ++ rest) = (1, ds ++ rest) := by
    rw [e]; unfold extractSign
    split
    · exact absurd (by assumption) (by simp; intro h; exact absurd h h43)
    · exact absurd (by assumption) (by simp; intro h; exact absurd h h45)
    · rfl
  simp only [e1, takeWhile_span (digits_isDigit hd) hr, dropWhile_span (digits_isDigit hd) hr]
  rw [if_neg (by omega), foldDigits_eq 0 hd]
  simp only [Int.zero_mul, Int.zero_add, Int.mul_one]

theorem fracPart_none {rest : Bytes} (h : rest.head? ≠ some 46) : fracPart rest = ([], rest) := by
  unfold fracPart
  split
  · exact absurd rfl h
  · rfl

/-- A number without fraction. -/
theorem isoNum_whole {ds rest : Bytes} (hd : DigitsOf 1 10 ds) (hv : value ds ≤ 2147483647) (hr : Stops isDigit rest)
    (h46 : rest.head? ≠ some 46) : parseIsoNumber (ds ++ rest) = .ok ((value ds : Int), .fin 0, rest) := by
  have ne := DigitsOf.ne hd (by omega)
  obtain ⟨x, t, e, hx, -⟩ := digit_head (r := rest) hd.1 ne
  have h2 : str2d (ds ++ rest) = .ok (.fin (((value ds : Nat) : Int) : Rat), rest) := by
    rw [str2d_digits hd.1 ne hd.2.2 hr, fracPart_none h46, if_neg (by simp), if_pos (by simp), F64.ofInt_ok (by omega)]
  have hsplit : isoSplit (.fin (((value ds : Nat) : Int) : Rat)) = .ok ((value ds : Int), .fin 0) := by
    rw [isoSplit_fin hv (by simp) (by simp) (by exact_mod_cast hv)]
    simp [F64.rnd]
  unfold parseIsoNumber
  have hlen : rest.length ≠ (ds ++ rest).length := by
    have := List.length_pos_iff.2 ne
    simp only [List.length_append]; omega
  rw [e] at h2 hlen ⊢
  simp only
  rw [if_neg (by simp [hx]), h2, Res.bind_ok]
  simp only
  rw [if_neg hlen, hsplit]
  rfl

/-- Quarters are exact. -/
theorem rnd_quarter {n j : Nat} (h : n * 4 + j ≤ 1000000000) : rnd ((n : Rat) + j / 4) = .fin (n + j / 4) := by
  have := rnd_exact_lt (n := (n * 4 + j : Int)) (k := -2) (by
    rw [abs_of_nonneg (by omega)]; norm_num; omega) (by norm_num) (by norm_num)
  rw [show (((n : Int) * 4 + j : Int) : Rat) * pow2 (-2) = (n : Rat) + j / 4 by
    rw [pow2_eq]; push_cast; norm_num; ring] at this
  exact this

/-- A number with a fraction. -/
theorem isoNum_part {ds fs : Bytes} (hd : DigitsOf 1 10 ds) (hv : value ds ≤ 1000000) (hf : DigitsOf 0 7 fs) (nf : fs ≠ []) :
    ∃ x : Rat, (∀ rest, Stops isDigit rest →
        parseIsoNumber (ds ++ 46 :: (fs ++ rest)) = .ok ((value ds : Int), .fin x, rest)) ∧
      |x - ((value fs * 10 ^ (7 - fs.length) : Nat) : Rat) / 10000000| ≤ (value ds + 1) / 2 ^ 52 ∧
      (∀ j : Nat, value fs * 10 ^ (7 - fs.length) = j * 2500000 → x = (j : Rat) / 4) := by
  have ne := DigitsOf.ne hd (by omega)
  obtain ⟨n, hn⟩ : ∃ n, n = value ds := ⟨_, rfl⟩
  rw [← hn] at hv ⊢
  obtain ⟨k, hk⟩ : ∃ k, k = value fs * 10 ^ (7 - fs.length) := ⟨_, rfl⟩
  rw [← hk]
  have hvf := value_lt hf.1
  have h7 := hf.2.2
  have e7 : (10 : Nat) ^ (7 - fs.length) * 10 ^ fs.length = 10000000 := by
    rw [← pow_add, show 7 - fs.length + fs.length = 7 by omega]; rfl
  have hp : 1 ≤ 10 ^ fs.length := Nat.one_le_pow _ _ (by omega)
  have hp7 : 10 ^ fs.length ≤ 10 ^ 7 := Nat.pow_le_pow_right (by omega) h7
  have hk7 : k < 10000000 := by
    rw [hk, ← e7, Nat.mul_comm]
    exact Nat.mul_lt_mul_of_pos_left hvf (by positivity)
  have hq : ((n * 10 ^ fs.length + value fs : Nat) : Rat) / ((10 ^ fs.length : Nat) : Rat) = n + k / 10000000 := by
    have h10 : ((10 ^ fs.length : Nat) : Rat) ≠ 0 := by positivity
    rw [div_eq_iff h10, add_mul, hk]
    have : (10000000 : Rat) = ((10 ^ (7 - fs.length) * 10 ^ fs.length : Nat) : Rat) := by rw [e7]; norm_num
    rw [this]
    push_cast
    field_simp
  have hN : n * 10 ^ fs.length + value fs ≤ 100000000000000 := by nlinarith
  have hdiv : (F64.ofInt (foldDigits (n : Int) fs)).div (F64.ofInt (10 ^ fs.length)) = rnd (n + k / 10000000) := by
    have c1 : (n : Int) * 10 ^ fs.length + value fs = ((n * 10 ^ fs.length + value fs : Nat) : Int) := by push_cast; rfl
    have c2 : (10 : Int) ^ fs.length = ((10 ^ fs.length : Nat) : Int) := by push_cast; rfl
    rw [foldDigits_eq _ hf.1, c1, c2, F64.ofInt_ok (by omega), F64.ofInt_ok (by omega),
      fin_div (by push_cast; positivity), ← hq]
    push_cast
    rfl
  have hn0 : (0 : Rat) ≤ n := Nat.cast_nonneg n
  have hnq : (n : Rat) ≤ 1000000 := by exact_mod_cast hv
  have hk0 : (0 : Rat) ≤ k := Nat.cast_nonneg k
  have hk9 : (k : Rat) ≤ 9999999 := by exact_mod_cast (show k ≤ 9999999 by omega)
  have key : ∃ s r : Rat, rnd (n + k / 10000000) = .fin s ∧ isoSplit (.fin s) = .ok ((n : Int), .fin r) ∧
      |r - (k : Rat) / 10000000| ≤ (n + 1) / 2 ^ 52 ∧ (∀ j : Nat, k = j * 2500000 → r = (j : Rat) / 4) := by
    by_cases hz : ∃ j : Nat, k = j * 2500000
    · obtain ⟨j, hj⟩ := hz
      have ej : (k : Rat) / 10000000 = j / 4 := by rw [hj]; push_cast; ring
      have hj4 : (j : Rat) ≤ 3 := by exact_mod_cast (show j ≤ 3 by omega)
      have hj0 : (0 : Rat) ≤ j := Nat.cast_nonneg j
      refine ⟨n + j / 4, j / 4, ?_, ?_, ?_, ?_⟩
      · rw [ej]; exact rnd_quarter (n := n) (j := j) (by omega)
      · rw [isoSplit_fin (n := n) (by omega) (by linarith) (by linarith) (by linarith),
          show (n : Rat) + j / 4 - n = ((0 : Nat) : Rat) + j / 4 by push_cast; ring, rnd_quarter (n := 0) (j := j) (by omega)]
        simp
      · rw [ej, sub_self, abs_zero]; positivity
      · intro i hi
        rw [show i = j by omega]
    · have hk1 : (1 : Rat) ≤ k := by
        have : k ≠ 0 := fun h => hz ⟨0, by omega⟩
        exact_mod_cast (show 1 ≤ k by omega)
      obtain ⟨s, s1, s2⟩ := rnd_near (q := (n : Rat) + k / 10000000) (by
        rw [abs_le]; constructor <;> norm_num <;> linarith)
      rw [abs_of_nonneg (show (0 : Rat) ≤ n + k / 10000000 by positivity)] at s2
      have s3 : |s - (n + k / 10000000)| ≤ 1 / 1000000000 := by
        refine le_trans s2 ?_
        norm_num
        linarith
      rw [abs_le] at s3
      have hb : |s - n| ≤ 1 := by rw [abs_le]; constructor <;> linarith
      obtain ⟨r, r1, r2⟩ := F64.rnd_within hb (by norm_num)
      refine ⟨s, r, s1, ?_, ?_, fun j hj => absurd ⟨j, hj⟩ hz⟩
      · rw [isoSplit_fin (n := n) (by omega) (by linarith) (by linarith) (by linarith), r1]
      · rw [abs_le] at r2 s2 ⊢
        norm_num at r2 s2 ⊢
        constructor <;> linarith
  obtain ⟨s, r, k1, k2, k3, k4⟩ := key
  refine ⟨r, ?_, k3, k4⟩
  intro rest hr
  obtain ⟨x, t, e, hx, -⟩ := digit_head (r := 46 :: (fs ++ rest)) hd.1 ne
  have h2 : str2d (ds ++ 46 :: (fs ++ rest)) = .ok (.fin s, rest) := by
    rw [str2d_digits hd.1 ne hd.2.2 (Stops.cons (c := 46) rfl)]
    simp only [fracPart, takeWhile_span (digits_isDigit hf.1) hr, dropWhile_span (digits_isDigit hf.1) hr]
    rw [if_neg (by omega), if_neg (by simpa using nf), ← hn, hdiv, k1]
  unfold parseIsoNumber
  have hlen : rest.length ≠ (ds ++ 46 :: (fs ++ rest)).length := by
    have := List.length_pos_iff.2 ne
    simp only [List.length_append, List.length_cons]; omega
  rw [e] at h2 hlen ⊢
  simp only
  rw [if_neg (by simp [hx]), h2, Res.bind_ok]
  simp only
  rw [if_neg hlen, k2]
  rfl

/-- The number of an item, read. -/
theorem isoItem_number {x : IsoItem} (h : x.Ok) :
    ∃ r : Rat, (∀ rest, Stops isDigit rest → rest.head? ≠ some 46 →
        parseIsoNumber (x.number ++ rest) = .ok ((value x.digits : Int), .fin r, rest)) ∧
      (x.frac = [] ∧ r = 0 ∨ x.frac ≠ [] ∧
        |r - (x.quantity.tenMillionths : Rat) / 10000000| ≤ (value x.digits + 1) / 2 ^ 52 ∧
        ∀ j : Nat, x.quantity.tenMillionths = j * 2500000 → r = (j : Rat) / 4) := by
  obtain ⟨hd, hf, hv, hfr⟩ := h
  by_cases he : x.frac = []
  · refine ⟨0, ?_, Or.inl ⟨he, rfl⟩⟩
    intro rest hr h46
    unfold IsoItem.number
    rw [if_pos he, List.append_nil]
    exact isoNum_whole hd hv hr h46
  · obtain ⟨r, h1, h2, h3⟩ := isoNum_part hd (by rcases hfr he with h | h | h | h <;> omega) hf he
    refine ⟨r, ?_, Or.inr ⟨he, ?_, ?_⟩⟩
    · intro rest hr _
      unfold IsoItem.number
      rw [if_neg he, List.append_assoc, List.cons_append]
      exact h1 rest hr
    · unfold FracQuantity.tenMillionths IsoItem.quantity
      simp only
      push_cast at h2 ⊢
      exact h2
    · unfold FracQuantity.tenMillionths IsoItem.quantity
      simp only
      intro j hj
      exact h3 j (by exact_mod_cast hj)

end Pg
