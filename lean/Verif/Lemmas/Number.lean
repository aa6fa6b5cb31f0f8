import Verif.Model.Decode
import Verif.Lemmas.F64Micro
import Verif.Lemmas.FormatTypes
import Verif.Lemmas.Lists
import Verif.Lemmas.Scan

/-! # Reading numbers -/

namespace Pg
open Spec

theorem digits_isDigit {ds : Bytes} (h : Digits ds) : ∀ b ∈ ds, isDigit b = true := by
  intro b hb; rw [isDigit_iff]; exact h b hb

theorem digits_iff {ds : Bytes} : Digits ds ↔ ∀ b ∈ ds, isDigit b = true :=
  ⟨digits_isDigit, fun h b hb => (isDigit_iff b).1 (h b hb)⟩

theorem takeWhile_digits (s : Bytes) : Digits (s.takeWhile isDigit) := by
  rw [digits_iff]
  induction s with
  | nil => intro b hb; cases hb
  | cons c s ih =>
    intro b hb
    by_cases hc : isDigit c = true
    · rw [List.takeWhile_cons_of_pos hc] at hb
      rcases List.mem_cons.1 hb with rfl | hb
      · exact hc
      · exact ih b hb
    · rw [List.takeWhile_cons_of_neg hc] at hb; cases hb

theorem foldDigits_eq (a : Int) {ds : Bytes} (h : Digits ds) :
    foldDigits a ds = a * 10 ^ ds.length + value ds := by
  induction ds using List.reverseRecOn with
  | nil => simp [foldDigits, value]
  | append_singleton ds d ih =>
    have hd := h d (by simp)
    have ih := ih fun x hx => h x (by simp [hx])
    unfold foldDigits at ih ⊢
    rw [List.foldl_append, ih, value_append]
    simp only [List.foldl_cons, List.foldl_nil, List.length_append, List.length_singleton]
    have : ((d - 48 : Nat) : Int) = (d : Int) - 48 := by omega
    push_cast [this]
    ring

theorem value_lt {ds : Bytes} (h : Digits ds) : value ds < 10 ^ ds.length := by
  induction ds using List.reverseRecOn with
  | nil => simp [value]
  | append_singleton ds d ih =>
    have hd := h d (by simp)
    have ih := ih fun x hx => h x (by simp [hx])
    rw [value_append, List.length_append, List.length_singleton, pow_succ]
    omega

theorem digit_head {ds r : Bytes} (h : Digits ds) (hne : ds ≠ []) :
    ∃ c t, ds ++ r = c :: t ∧ isDigit c = true ∧ isSpace c = false ∧ c ≠ 43 ∧ c ≠ 45 := by
  cases ds with
  | nil => exact absurd rfl hne
  | cons c t =>
    have hc := h c (by simp)
    refine ⟨c, t ++ r, rfl, (isDigit_iff c).2 hc, ?_, by omega, by omega⟩
    unfold isSpace; simp; omega

theorem extractSign_digits {ds r : Bytes} (h : Digits ds) (hne : ds ≠ []) :
    extractSign (ds ++ r) = (1, ds ++ r) := by
  obtain ⟨c, t, e, -, -, h1, h2⟩ := digit_head (r := r) h hne
  rw [e]; unfold extractSign
  split
  · simp_all
  · simp_all
  · rfl

/-- What `str2i32` makes of an unsigned run of digits. -/
theorem str2i32_digits {ds r : Bytes} (h : Digits ds) (hne : ds ≠ []) (hr : Stops isDigit r) :
    str2i32 (ds ++ r) = if ds.length ≤ 10 ∧ value ds ≤ 2147483647 then .ok ((value ds : Int), r)
      else .err .overflow := by
  obtain ⟨c, t, e, -, hs, -, -⟩ := digit_head (r := r) h hne
  unfold str2i32
  have hd : (ds ++ r).dropWhile isSpace = ds ++ r := by
    rw [e]; exact dropWhile_stop (Stops.cons hs)
  simp only [hd]
  rw [if_neg (by rw [e]; simp), extractSign_digits h hne]
  simp only [takeWhile_span (digits_isDigit h) hr, dropWhile_span (digits_isDigit h) hr]
  rw [foldDigits_eq 0 h]
  have hv : ((0 : Int) * 10 ^ ds.length + value ds) * 1 = value ds := by ring
  rw [hv]
  by_cases h1 : ds.length ≤ 10
  · rw [if_neg (by omega)]
    by_cases h2 : value ds ≤ 2147483647
    · rw [if_pos (by unfold In32; omega), if_pos ⟨h1, h2⟩]
    · rw [if_neg (by unfold In32; omega), if_neg (by tauto)]
  · rw [if_pos (by omega), if_neg (by tauto)]

theorem str2i32_ok {ds r : Bytes} (h : Digits ds) (hne : ds ≠ []) (hr : Stops isDigit r)
    (hl : ds.length ≤ 10) (hv : value ds ≤ 2147483647) :
    str2i32 (ds ++ r) = .ok ((value ds : Int), r) := by
  rw [str2i32_digits h hne hr, if_pos ⟨hl, hv⟩]

theorem str2i32_all {ds : Bytes} (h : Digits ds) (hne : ds ≠ []) :
    str2i32 ds = if ds.length ≤ 10 ∧ value ds ≤ 2147483647 then .ok ((value ds : Int), [])
      else .err .overflow := by
  have := str2i32_digits (r := []) h hne (Stops.nil _)
  rwa [List.append_nil] at this

/-- A run of digits after a sign. -/
theorem str2i32_signed {ds r : Bytes} (neg : Bool) (h : Digits ds) (hr : Stops isDigit r)
    (hl : ds.length ≤ 10) (hv : value ds ≤ 2147483647 ∨ neg = true ∧ value ds ≤ 2147483648) :
    str2i32 ((if neg then 45 else 43) :: (ds ++ r)) =
      .ok ((if neg then -(value ds : Int) else value ds), r) := by
  have hd : ∀ x : Nat, (x = 45 ∨ x = 43) → (x :: (ds ++ r)).dropWhile isSpace = x :: (ds ++ r) := by
    intro x hx; rcases hx with rfl | rfl <;> rfl
  have hv' : (0 : Int) * 10 ^ ds.length + value ds = value ds := by ring
  unfold str2i32
  cases neg with
  | true =>
    simp only [if_true]
    rw [hd 45 (by omega), if_neg (by simp)]
    simp only [extractSign, takeWhile_span (digits_isDigit h) hr, dropWhile_span (digits_isDigit h) hr]
    rw [foldDigits_eq 0 h, hv', if_neg (by omega), show (value ds : Int) * -1 = -(value ds) by ring,
      if_pos (by unfold In32; omega)]
  | false =>
    simp only [Bool.false_eq_true, if_false]
    rw [hd 43 (by omega), if_neg (by simp)]
    simp only [extractSign, takeWhile_span (digits_isDigit h) hr, dropWhile_span (digits_isDigit h) hr]
    have hv2 : value ds ≤ 2147483647 := by simpa using hv
    rw [foldDigits_eq 0 h, hv', if_neg (by omega), show (value ds : Int) * 1 = value ds by ring,
      if_pos (by unfold In32; omega)]

/-- The float of a fraction `.f`. -/
def fracF64 (fs : Bytes) : F64 :=
  if fs = [] then F64.ofInt 0 else (F64.ofInt (value fs)).div (F64.ofInt (10 ^ fs.length))

theorem str2d_frac {fs r : Bytes} (h : Digits fs) (hr : Stops isDigit r) :
    str2d (46 :: (fs ++ r)) = if fs.length ≤ 7 then .ok (fracF64 fs, r) else .err .overflow := by
  unfold str2d
  have hd : (46 :: (fs ++ r)).dropWhile isSpace = 46 :: (fs ++ r) := rfl
  simp only [hd]
  rw [if_neg (by simp)]
  have e1 : extractSign (46 :: (fs ++ r)) = (1, 46 :: (fs ++ r)) := rfl
  have e2 : (46 :: (fs ++ r)).takeWhile isDigit = [] := rfl
  have e3 : (46 :: (fs ++ r)).dropWhile isDigit = 46 :: (fs ++ r) := rfl
  simp only [e1, e2, e3]
  rw [if_neg (by simp)]
  simp only [fracPart, takeWhile_span (digits_isDigit h) hr, dropWhile_span (digits_isDigit h) hr]
  by_cases hl : fs.length ≤ 7
  · rw [if_neg (by omega), if_pos hl]
    have e4 : foldDigits 0 [] = 0 := rfl
    rw [e4, foldDigits_eq 0 h]
    unfold fracF64
    by_cases hn : fs = []
    · subst hn; rfl
    · rw [if_neg (by simpa using hn), if_neg hn]
      simp
  · rw [if_pos (by omega), if_neg hl]

/-- `(v * 1e6).round() as i64` of a fraction is a nearest microsecond count: at most half a microsecond
off, and exact for up to six digits. -/
theorem roundMicros_frac {fs : Bytes} (h : Digits fs) (hl : fs.length ≤ 7) :
    ∃ k : Nat, roundMicros (fracF64 fs) = k ∧
      2 * k * 10 ^ fs.length ≤ 2 * value fs * 1000000 + 10 ^ fs.length ∧
      2 * value fs * 1000000 ≤ 2 * k * 10 ^ fs.length + 10 ^ fs.length := by
  by_cases hn : fs = []
  · subst hn
    refine ⟨0, ?_, ?_, ?_⟩
    · decide +kernel
    · simp [value]
    · simp [value]
  · have hv := value_lt h
    have hlen : 1 ≤ fs.length := List.length_pos_iff.2 hn
    unfold fracF64
    rw [if_neg hn]
    have hp7 : 10 ^ fs.length ≤ 10 ^ 7 := Nat.pow_le_pow_right (by omega) hl
    have hp1 : 10 ^ 1 ≤ 10 ^ fs.length := Nat.pow_le_pow_right (by omega) hlen
    generalize hN : value fs = n at *
    rw [F64.ofInt_ok (n := (n : Int)) (by omega),
      F64.ofInt_ok (n := (10 ^ fs.length : Int)) (by constructor <;> norm_cast <;> omega)]
    generalize hD : (10 : Nat) ^ fs.length = D at *
    have hD' : (((10 : Int) ^ fs.length : Int) : Rat) = (D : Rat) := by
      rw [← hD]; push_cast; rfl
    rw [hD']
    have D0 : (0 : Rat) < D := by have : 0 < D := by omega
                                  exact_mod_cast this
    have hq0 : (0 : Rat) ≤ (n : Rat) / D := by positivity
    have hq1 : (n : Rat) / D ≤ 1 := by
      rw [div_le_one D0]; exact_mod_cast hv.le
    have ha : |(n : Rat) / D| ≤ 1 := by rw [abs_of_nonneg hq0]; exact hq1
    obtain ⟨s, e1, e2⟩ := F64.rnd_near (q := (n : Rat) / D) (le_trans ha (by norm_num))
    have hdiv : (F64.fin ((n : Int) : Rat)).div (.fin (D : Rat)) = .fin s := by
      unfold F64.div
      simp only
      rw [if_neg D0.ne', ← e1]
      push_cast; rfl
    rw [hdiv]
    have hs : |s - (n : Rat) / D| ≤ 1 / 1000000000000000 := by
      refine le_trans e2 ?_
      have : |(n : Rat) / D| / 2 ^ 53 ≤ 1 / 2 ^ 53 := div_le_div_of_nonneg_right ha (by norm_num)
      refine le_trans (add_le_add_left this _) ?_
      norm_num
    rw [abs_le] at hs
    have hb : |s * 1000000| ≤ 2000000 := by rw [abs_le]; constructor <;> linarith
    obtain ⟨t, f1, f2⟩ := F64.rnd_near (q := s * 1000000) (le_trans hb (by norm_num))
    have f3 : |t - s * 1000000| ≤ 1 / 1000000000 := by
      refine le_trans f2 ?_
      have : |s * 1000000| / 2 ^ 53 ≤ 2000000 / 2 ^ 53 := div_le_div_of_nonneg_right hb (by norm_num)
      refine le_trans (add_le_add_left this _) ?_
      norm_num
    rw [abs_le] at f3
    have f4 := F64.roundAway_err t
    rw [abs_le] at f4
    have hr : roundMicros (.fin s) = F64.clamp (-9223372036854775808) 9223372036854775807 (F64.roundAway t) := by
      unfold roundMicros F64.mul
      simp only
      rw [f1]
      unfold F64.round F64.toI64
      simp only [F64.truncQ_int]
    set k := F64.roundAway t with hk
    have k0 : (-1 : Rat) < k := by
      have : (0 : Rat) ≤ (n : Rat) / D * 1000000 := by positivity
      linarith
    have k1 : (k : Rat) < 1000002 := by linarith
    have k0' : 0 ≤ k := by
      have : (-1 : Int) < k := by exact_mod_cast k0
      omega
    have k1' : k < 1000002 := by exact_mod_cast k1
    have hc : F64.clamp (-9223372036854775808) 9223372036854775807 k = k := by
      unfold F64.clamp; rw [if_neg (by omega), if_neg (by omega)]
    obtain ⟨m, hm⟩ := Int.eq_ofNat_of_zero_le k0'
    have hnD : (n : Rat) / D * D = n := div_mul_cancel₀ _ D0.ne'
    have hmk : (m : Rat) = k := by rw [hm]; norm_cast
    have D7 : (D : Rat) ≤ 10000000 := by exact_mod_cast hp7
    -- the error is below a tenth of the grid
    have g1 : (2 * m * D : Rat) < 2 * n * 1000000 + D + 1 := by
      have : (m : Rat) * D ≤ ((n : Rat) / D * 1000000 + 1 / 2 + 1 / 500000000) * D := by
        apply mul_le_mul_of_nonneg_right _ D0.le
        rw [hmk]; linarith
      have e : ((n : Rat) / D * 1000000 + 1 / 2 + 1 / 500000000) * D =
          (n : Rat) / D * D * 1000000 + D / 2 + D / 500000000 := by ring
      rw [e, hnD] at this
      linarith
    have g2 : (2 * n * 1000000 : Rat) < 2 * m * D + D + 1 := by
      have : ((n : Rat) / D * 1000000 - 1 / 2 - 1 / 500000000) * D ≤ (m : Rat) * D := by
        apply mul_le_mul_of_nonneg_right _ D0.le
        rw [hmk]; linarith
      have e : ((n : Rat) / D * 1000000 - 1 / 2 - 1 / 500000000) * D =
          (n : Rat) / D * D * 1000000 - D / 2 - D / 500000000 := by ring
      rw [e, hnD] at this
      linarith
    refine ⟨m, by rw [hr, hc, hm], ?_, ?_⟩
    · have : 2 * m * D < 2 * n * 1000000 + D + 1 := by exact_mod_cast g1
      omega
    · have : 2 * n * 1000000 < 2 * m * D + D + 1 := by exact_mod_cast g2
      omega

/-- Up to six digits the microseconds are exact. -/
theorem roundMicros_exact {fs : Bytes} (h : Digits fs) (hl : fs.length ≤ 6) :
    roundMicros (fracF64 fs) = (value fs * 10 ^ (6 - fs.length) : Nat) := by
  obtain ⟨k, hk, h1, h2⟩ := roundMicros_frac h (by omega)
  rw [hk]
  have e : (1000000 : Nat) = 10 ^ (6 - fs.length) * 10 ^ fs.length := by
    rw [← pow_add, show 6 - fs.length + fs.length = 6 by omega]; rfl
  rw [e] at h1 h2
  have hD : 0 < 10 ^ fs.length := Nat.pos_of_ne_zero (by positivity)
  generalize 10 ^ fs.length = D at *
  generalize 10 ^ (6 - fs.length) = E at *
  congr 1
  have a1 : 2 * k * D ≤ (2 * (value fs * E) + 1) * D := by
    calc 2 * k * D ≤ _ := h1
      _ = _ := by ring
  have a2 : 2 * (value fs * E) * D ≤ (2 * k + 1) * D := by
    calc 2 * (value fs * E) * D = 2 * value fs * (E * D) := by ring
      _ ≤ _ := h2
      _ = _ := by ring
  have b1 := Nat.le_of_mul_le_mul_right a1 hD
  have b2 := Nat.le_of_mul_le_mul_right a2 hD
  omega

/-- Microseconds read from a fraction. -/
theorem parseFractionalSecond_eq {fs : Bytes} (h : Digits fs) :
    parseFractionalSecond (46 :: fs) =
      if fs.length ≤ 7 then .ok (roundMicros (fracF64 fs)) else .err .overflow := by
  have := str2d_frac (r := []) h (Stops.nil _)
  rw [List.append_nil] at this
  unfold parseFractionalSecond
  rw [this]
  split <;> rfl

end Pg
