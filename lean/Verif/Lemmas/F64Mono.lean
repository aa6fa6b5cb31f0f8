import Verif.Lemmas.F64Parts

/-! # Rounding to binary64 keeps order -/

namespace Pg
namespace F64

theorem roundEven_mono {x y : Rat} (h : x ≤ y) : roundEven x ≤ roundEven y := by
  have hx := floor_le' x
  have hx' := lt_floor' x
  have hy := floor_le' y
  have hy' := lt_floor' y
  have hf : x.floor ≤ y.floor := by rw [floor_eq, floor_eq]; exact Int.floor_le_floor h
  rcases Int.lt_or_eq_of_le hf with hl | he
  · have a : roundEven x ≤ x.floor + 1 := roundEven_le (by push_cast; linarith)
    have b : y.floor ≤ roundEven y := le_roundEven hy
    omega
  · unfold roundEven
    simp only
    rw [he]
    split <;> split <;> try omega
    all_goals split <;> try omega
    all_goals first
      | (exfalso; linarith)
      | (split <;> first | omega | (exfalso; linarith))

/-- The value of `rnd` before the test for overflow. -/
theorem rnd_mono_pos {q q' : Rat} (h0 : 0 < q) (h : q ≤ q') :
    (roundEven (q / pow2 (ulpExp q)) : Rat) * pow2 (ulpExp q) ≤
      (roundEven (q' / pow2 (ulpExp q')) : Rat) * pow2 (ulpExp q') := by
  have h0' : 0 < q' := lt_of_lt_of_le h0 h
  have b := ilog_bounds h0.ne'
  have b' := ilog_bounds h0'.ne'
  rw [abs_of_pos h0] at b
  rw [abs_of_pos h0'] at b'
  have hi : ilog q ≤ ilog q' := by
    have := pow2_lt_iff.1 (lt_of_le_of_lt b.1 (lt_of_le_of_lt h b'.2))
    omega
  have he : ulpExp q ≤ ulpExp q' := by unfold ulpExp; omega
  have hp := pow2_pos (ulpExp q)
  have hp' := pow2_pos (ulpExp q')
  rcases Int.lt_or_eq_of_le he with hl | hl
  · have e' : ilog q' = 52 + ulpExp q' := by unfold ulpExp at hl ⊢; omega
    have hr' : ((2 ^ 52 : Int) : Rat) ≤ roundEven (q' / pow2 (ulpExp q')) := by
      have : ((2 ^ 52 : Int) : Rat) ≤ q' / pow2 (ulpExp q') := by
        rw [le_div_iff₀ hp']
        have t := b'.1
        rw [e', pow2_add] at t
        rw [show pow2 52 = ((2 ^ 52 : Int) : Rat) by rw [pow2_eq]; norm_cast] at t
        exact t
      exact_mod_cast le_roundEven this
    have hr : (roundEven (q / pow2 (ulpExp q)) : Rat) ≤ ((2 ^ 53 : Int) : Rat) := by
      have : q / pow2 (ulpExp q) ≤ ((2 ^ 53 : Int) : Rat) := by
        rw [div_le_iff₀ hp, show ((2 ^ 53 : Int) : Rat) = pow2 53 by rw [pow2_eq]; norm_cast, ← pow2_add]
        refine le_trans b.2.le (pow2_le_iff.2 ?_)
        unfold ulpExp; omega
      exact_mod_cast roundEven_le this
    have h2 : pow2 (ulpExp q) * 2 ≤ pow2 (ulpExp q') := by
      rw [show (2 : Rat) = pow2 1 by rw [pow2_eq]; norm_cast, ← pow2_add]
      exact pow2_le_iff.2 (by omega)
    calc (roundEven (q / pow2 (ulpExp q)) : Rat) * pow2 (ulpExp q)
        ≤ ((2 ^ 53 : Int) : Rat) * pow2 (ulpExp q) := mul_le_mul_of_nonneg_right hr hp.le
      _ = ((2 ^ 52 : Int) : Rat) * (pow2 (ulpExp q) * 2) := by push_cast; ring
      _ ≤ ((2 ^ 52 : Int) : Rat) * pow2 (ulpExp q') := mul_le_mul_of_nonneg_left h2 (by norm_num)
      _ ≤ _ := mul_le_mul_of_nonneg_right hr' hp'.le
  · rw [hl]
    refine mul_le_mul_of_nonneg_right ?_ hp'.le
    exact_mod_cast roundEven_mono (div_le_div_of_nonneg_right h hp'.le)

theorem rnd_pos_nonneg {q r : Rat} (h0 : 0 < q) (hr : rnd q = .fin r) : 0 ≤ r := by
  unfold rnd at hr
  rw [if_neg h0.ne'] at hr
  simp only at hr
  split at hr
  · cases hr
  · injection hr with hr
    rw [← hr]
    refine mul_nonneg ?_ (pow2_pos _).le
    have : (0 : Int) ≤ roundEven (q / pow2 (ulpExp q)) :=
      le_roundEven (by push_cast; exact div_nonneg h0.le (pow2_pos _).le)
    exact_mod_cast this

theorem rnd_mono_pos' {q q' r r' : Rat} (h0 : 0 < q) (h : q ≤ q') (hr : rnd q = .fin r)
    (hr' : rnd q' = .fin r') : r ≤ r' := by
  have k := rnd_mono_pos h0 h
  unfold rnd at hr hr'
  rw [if_neg h0.ne'] at hr
  rw [if_neg (lt_of_lt_of_le h0 h).ne'] at hr'
  simp only at hr hr'
  split at hr
  · cases hr
  split at hr'
  · cases hr'
  injection hr with hr
  injection hr' with hr'
  rw [← hr, ← hr']; exact k

/-- Rounding keeps order. -/
theorem rnd_mono {q q' r r' : Rat} (h : q ≤ q') (hr : rnd q = .fin r) (hr' : rnd q' = .fin r') : r ≤ r' := by
  have flip : ∀ {x y : Rat}, rnd x = .fin y → rnd (-x) = .fin (-y) := by
    intro x y e; rw [rnd_neg, e]; rfl
  have nonneg : ∀ {x y : Rat}, 0 ≤ x → rnd x = .fin y → 0 ≤ y := by
    intro x y hx e
    rcases hx.lt_or_eq with hx | hx
    · exact rnd_pos_nonneg hx e
    · rw [← hx, rnd_zero] at e
      injection e with e
      exact e.le
  rcases lt_or_ge 0 q with h0 | h0
  · exact rnd_mono_pos' h0 h hr hr'
  · rcases lt_or_ge q' 0 with h1 | h1
    · have := rnd_mono_pos' (q := -q') (q' := -q) (by linarith) (by linarith) (flip hr') (flip hr)
      linarith
    · have a := nonneg (x := -q) (by linarith) (flip hr)
      have b := nonneg h1 hr'
      linarith

end F64
end Pg
