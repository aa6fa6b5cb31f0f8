import Verif.Lemmas.FractionsF64
import Verif.Lemmas.JulianFrac

/-! # Bounds on floating point values -/

namespace Pg
open Spec F64

/-- A finite value of at most this size. -/
def Sized (v : F64) (B : Rat) : Prop := ∃ x, v = .fin x ∧ |x| ≤ B

theorem Sized.mono {v : F64} {B C : Rat} (h : Sized v B) (hb : B ≤ C) : Sized v C := by
  obtain ⟨x, h1, h2⟩ := h
  exact ⟨x, h1, h2.trans hb⟩

theorem sized_rnd {q B : Rat} (h : |q| ≤ B) (hB : B ≤ 1000000000000000) : Sized (rnd q) (B + 1) := by
  obtain ⟨r, h1, h2⟩ := rnd_within h (hB.trans (by norm_num))
  refine ⟨r, h1, ?_⟩
  have : B / 2 ^ 53 + 1 / 2 ^ 100 ≤ 1 := by norm_num; linarith
  rw [abs_le] at h h2 ⊢
  constructor <;> linarith

theorem int_abs {n : Int} {N : Int} (h : -N ≤ n ∧ n ≤ N) : |(n : Rat)| ≤ N := by
  rw [abs_le]
  exact ⟨by exact_mod_cast h.1, by exact_mod_cast h.2⟩

theorem Sized.mul {v : F64} {B : Rat} (h : Sized v B) {n N : Int} (hn : -N ≤ n ∧ n ≤ N) (hN : N ≤ 1000000) (hB : B * N ≤ 1000000000000000) :
    Sized (v.mul (ofInt n)) (B * N + 1) := by
  obtain ⟨x, rfl, h2⟩ := h
  rw [F64.ofInt_ok (by omega), fin_mul]
  refine sized_rnd ?_ hB
  rw [abs_mul]
  exact mul_le_mul h2 (int_abs hn) (abs_nonneg _) ((abs_nonneg _).trans h2)

theorem Sized.add {v : F64} {B : Rat} (h : Sized v B) {n N : Int} (hn : -N ≤ n ∧ n ≤ N) (hN : N ≤ 9007199254740992) (hB : N + B ≤ 1000000000000000) :
    Sized ((ofInt n).add v) (N + B + 1) := by
  obtain ⟨x, rfl, h2⟩ := h
  rw [F64.ofInt_ok (by omega), fin_add]
  refine sized_rnd ((abs_add_le _ _).trans ?_) hB
  have := int_abs hn
  linarith

theorem Sized.neg {v : F64} {B : Rat} (h : Sized v B) : Sized v.neg B := by
  obtain ⟨x, rfl, h2⟩ := h
  exact ⟨-x, rfl, by rwa [abs_neg]⟩

theorem Sized.toI32 {v : F64} {B : Int} (h : Sized v B) (hB : B ≤ 1999999998) : -B - 1 ≤ v.toI32 ∧ v.toI32 ≤ B + 1 := by
  obtain ⟨x, rfl, h2⟩ := h
  have hb : (B : Rat) ≤ (1999999998 : Int) := by exact_mod_cast hB
  push_cast at hb
  rw [toI32_fin (h2.trans (by linarith))]
  have ht := truncQ_err x
  rw [abs_lt] at ht
  rw [abs_le] at h2
  have u : ((-B - 1 : Int) : Rat) ≤ truncQ x := by push_cast; linarith
  have w : (truncQ x : Rat) ≤ (B + 1 : Int) := by push_cast; linarith
  exact ⟨by exact_mod_cast u, by exact_mod_cast w⟩

/-- What remains after the whole part. -/
theorem Sized.frac {v : F64} {B : Int} (h : Sized v B) (hB : B ≤ 1999999998) : Sized (v.sub (ofInt v.toI32)) 2 := by
  have hi := h.toI32 hB
  obtain ⟨x, rfl, h2⟩ := h
  have hb : (B : Rat) ≤ (1999999998 : Int) := by exact_mod_cast hB
  push_cast at hb
  rw [F64.ofInt_ok (by omega), toI32_fin (h2.trans (by linarith))]
  have ht := truncQ_err x
  obtain h := sized_rnd (q := x + -(truncQ x : Rat)) (B := 1) (by rw [abs_lt] at ht; rw [abs_le]; constructor <;> linarith) (by norm_num)
  exact h.mono (by norm_num)

theorem Sized.round {v : F64} {B : Int} (h : Sized v B) (hB : B ≤ 1000000000000000) :
    -B - 1 ≤ (v.round).toI64 ∧ (v.round).toI64 ≤ B + 1 := by
  obtain ⟨x, rfl, h2⟩ := h
  have hb : (B : Rat) ≤ (1000000000000000 : Int) := by exact_mod_cast hB
  push_cast at hb
  rw [round_i64 (h2.trans hb)]
  have ht := roundAway_err x
  rw [abs_le] at ht h2
  have u : ((-B - 1 : Int) : Rat) ≤ roundAway x := by push_cast; linarith
  have w : (roundAway x : Rat) ≤ (B + 1 : Int) := by push_cast; linarith
  exact ⟨by exact_mod_cast u, by exact_mod_cast w⟩

theorem Sized.micros {v : F64} (h : Sized v 2) : -2000002 ≤ roundMicros v ∧ roundMicros v ≤ 2000002 := by
  unfold roundMicros
  have := h.mul (n := 1000000) (N := 1000000) (by omega) (by omega) (by norm_num)
  rw [ofInt_usecs] at this
  exact (this.mono (C := (2000001 : Int)) (by norm_num)).round (by omega)

theorem sized_fraction {fs : Bytes} (h : Digits fs) (hl : fs.length ≤ 7) : Sized (fracF64 fs) 2 := by
  rw [fracTen_rnd h hl]
  have hb := fracTen_bound h hl
  refine (sized_rnd (B := 1) ?_ (by norm_num)).mono (by norm_num)
  have h1 : (0 : Rat) ≤ fracTen fs := by exact_mod_cast hb.1
  have h2 : (fracTen fs : Rat) ≤ (10000000 : Int) := by exact_mod_cast hb.2.le
  push_cast at h2
  rw [abs_le]
  constructor
  · have : (0 : Rat) ≤ fracTen fs / 10000000 := div_nonneg h1 (by norm_num)
    linarith
  · rw [div_le_one (by norm_num)]; exact h2

end Pg
