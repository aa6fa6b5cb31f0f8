import Verif.Lemmas.F64Micro

/-!
# Error analysis of the cascade in `mul_f64`
-/

namespace Pg
namespace F64

/-- One rounding of a value of size at most `B`, as two inequalities. -/
theorem rnd_step {q B : Rat} (h1 : -B ≤ q) (h2 : q ≤ B) (hB : B ≤ 2 ^ 99) :
    ∃ r, rnd q = .fin r ∧ q - (B / 2 ^ 53 + 1 / 2 ^ 100) ≤ r ∧ r ≤ q + (B / 2 ^ 53 + 1 / 2 ^ 100) := by
  have hq : |q| ≤ B := abs_le.2 ⟨h1, h2⟩
  obtain ⟨r, e, hr⟩ := rnd_near (q := q) (le_trans hq (le_trans hB (by norm_num)))
  have hd : |q| / 2 ^ 53 ≤ B / 2 ^ 53 := div_le_div_of_nonneg_right hq (by norm_num)
  rw [abs_le] at hr
  exact ⟨r, e, by linarith [hr.1], by linarith [hr.2]⟩

theorem truncQ_facts (x : Rat) :
    (0 ≤ x ∧ 0 ≤ truncQ x ∧ (truncQ x : Rat) ≤ x ∧ x < truncQ x + 1) ∨
    (x ≤ 0 ∧ truncQ x ≤ 0 ∧ x ≤ truncQ x ∧ (truncQ x : Rat) - 1 < x) := by
  unfold truncQ
  split
  · rename_i h
    exact .inl ⟨h, Int.floor_nonneg.2 h, floor_le' x, lt_floor' x⟩
  · rename_i h
    have h' : x ≤ 0 := (not_le.1 h).le
    refine .inr ⟨h', ?_, ?_, ?_⟩
    · have : 0 ≤ (-x).floor := Int.floor_nonneg.2 (neg_nonneg.2 h')
      omega
    · have := floor_le' (-x); push_cast; linarith
    · have := lt_floor' (-x); push_cast; linarith

/-- `timestamp_round` is within about half a millionth. -/
theorem timestampRound_near {x : Rat} (h1 : -200000 ≤ x) (h2 : x ≤ 200000) :
    ∃ r, Interval.timestampRound (.fin x) = .fin r ∧ x - 50005 / 10 ^ 11 ≤ r ∧ r ≤ x + 50005 / 10 ^ 11 := by
  obtain ⟨a, e1, a1, a2⟩ := rnd_step (q := x * 1000000) (B := 200000000000) (by linarith) (by linarith)
    (by norm_num)
  have hr := roundAway_err a
  rw [abs_le] at hr
  norm_num at a1 a2
  obtain ⟨b, e2, b1, b2⟩ := rnd_step (q := (roundAway a : Rat) / 1000000) (B := 200001)
    (by linarith) (by linarith) (by norm_num)
  norm_num at b1 b2
  refine ⟨b, ?_, ?_, ?_⟩
  · unfold Interval.timestampRound F64.mul
    simp only
    rw [e1]
    unfold F64.round F64.div
    simp only
    rw [if_neg (by norm_num), e2]
  · norm_num; linarith
  · norm_num; linarith

theorem toI32_small {x : Rat} (h1 : -100000 ≤ x) (h2 : x ≤ 100000) : (F64.fin x).toI32 = truncQ x := by
  unfold toI32
  simp only
  have : -100001 ≤ truncQ x ∧ truncQ x ≤ 100001 := by
    rcases truncQ_facts x with ⟨a, b, c, d⟩ | ⟨a, b, c, d⟩
    · have : (truncQ x : Rat) ≤ 100000 := by linarith
      have : truncQ x ≤ 100000 := by exact_mod_cast this
      omega
    · have : (-100000 : Rat) ≤ truncQ x := by linarith
      have : -100000 ≤ truncQ x := by exact_mod_cast this
      omega
  unfold clamp
  rw [if_neg (by omega), if_neg (by omega)]

/-- The days carried out of the seconds. -/
theorem carryDays_spec (p : Profile) (rd : Int) {s : Rat} (h1 : -190000 ≤ s) (h2 : s ≤ 190000) :
    ∃ (k : Int) (s' : Rat), -3 ≤ k ∧ k ≤ 3 ∧ (In32 (rd + k) →
      Interval.carryDays p rd (.fin s) = .ok (rd + k, .fin s')) ∧
      -1 / 10 ^ 9 ≤ (k * 86400 + s') - s ∧ (k * 86400 + s') - s ≤ 1 / 10 ^ 9 ∧ -87000 ≤ s' ∧ s' ≤ 87000 := by
  have e0 : F64.ofInt 86400 = .fin ((86400 : Int) : Rat) := ofInt_ok (by omega)
  by_cases hc : (86400 : Rat) ≤ absQ s
  · obtain ⟨a, e1, a1, a2⟩ := rnd_step (q := s / 86400) (B := 3) (by linarith) (by linarith) (by norm_num)
    norm_num at a1 a2
    have ht := truncQ_facts a
    have hk : -3 ≤ truncQ a ∧ truncQ a ≤ 3 := by
      rcases ht with ⟨u, v, w, z⟩ | ⟨u, v, w, z⟩
      · have : (truncQ a : Rat) ≤ 3 := by linarith
        have : truncQ a ≤ 3 := by exact_mod_cast this
        omega
      · have : (-3 : Rat) ≤ truncQ a := by linarith
        have : -3 ≤ truncQ a := by exact_mod_cast this
        omega
    have hs : -86401 ≤ s - truncQ a * 86400 ∧ s - truncQ a * 86400 ≤ 86401 := by
      rcases ht with ⟨u, v, w, z⟩ | ⟨u, v, w, z⟩ <;> constructor <;> linarith
    obtain ⟨b, e2, b1, b2⟩ := rnd_step (q := s - truncQ a * 86400) (B := 86401) (by linarith [hs.1])
      (by linarith [hs.2]) (by norm_num)
    norm_num at b1 b2
    refine ⟨truncQ a, b, hk.1, hk.2, ?_, ?_, ?_, ?_, ?_⟩
    · intro hi
      unfold Interval.carryDays
      rw [e0]
      rw [if_pos (by
        unfold F64.abs F64.ge
        simp only [decide_eq_true_eq]
        push_cast; exact hc)]
      have ek : ((F64.fin s).div (.fin ((86400 : Int) : Rat))).toI32 = truncQ a := by
        unfold F64.div
        simp only
        rw [if_neg (by norm_num), show s / ((86400 : Int) : Rat) = s / 86400 by push_cast; rfl, e1]
        exact toI32_small (by linarith) (by linarith)
      simp only [ek]
      unfold In32 at hi
      rw [chk32_ok hi, Res.bind_ok, chk32_ok (by omega), Res.bind_ok, ofInt_ok (by omega)]
      have : (F64.fin s).sub (.fin ((truncQ a * 86400 : Int) : Rat)) = .fin b := by
        unfold F64.sub F64.neg F64.add
        simp only
        push_cast
        rw [← sub_eq_add_neg, e2]
      rw [this]; rfl
    · linarith
    · linarith
    · linarith [hs.1]
    · linarith [hs.2]
  · rw [absQ_eq, not_le, abs_lt] at hc
    refine ⟨0, s, by omega, by omega, ?_, by norm_num, by norm_num, by linarith [hc.1], by linarith [hc.2]⟩
    intro _
    unfold Interval.carryDays
    rw [e0, if_neg (by
      unfold F64.abs F64.ge
      simp only [decide_eq_true_eq]
      push_cast
      rw [absQ_eq, not_le, abs_lt]; exact hc), Int.add_zero]

/-- The cascade of fractional months and days keeps the total length up to half a millionth of a
day. -/
theorem cascade_spec (p : Profile) {m d : Rat} (rm rd : Int)
    (hm1 : -1 < m - rm) (hm2 : m - rm < 1) (hd1 : -1 < d - rd) (hd2 : d - rd < 1)
    (hrm : -2147483648 ≤ rm ∧ rm ≤ 2147483647) (hrd : -2147483648 ≤ rd ∧ rd ≤ 2147483647) :
    ∃ (k1 k2 : Int) (s : Rat), -31 ≤ k1 ∧ k1 ≤ 31 ∧ -3 ≤ k2 ∧ k2 ≤ 3 ∧
      (In32 (rd + k2) → In32 (rd + k2 + k1) →
        Interval.cascade p (.fin m) (.fin d) rm rd = .ok (rd + k2 + k1, .fin s)) ∧
      -433 / 10000 ≤ ((rd : Rat) + k2 + k1) * 86400 + s - (30 * (m - rm) + d) * 86400 ∧
      ((rd : Rat) + k2 + k1) * 86400 + s - (30 * (m - rm) + d) * 86400 ≤ 433 / 10000 ∧
      -87000 ≤ s ∧ s ≤ 87000 := by
  have e30 : F64.ofInt 30 = .fin ((30 : Int) : Rat) := ofInt_ok (by omega)
  have e864 : F64.ofInt 86400 = .fin ((86400 : Int) : Rat) := ofInt_ok (by omega)
  obtain ⟨fm, f1, fm1, fm2⟩ := rnd_step (q := m - rm) (B := 1) (by linarith) (by linarith) (by norm_num)
  norm_num at fm1 fm2
  obtain ⟨x, x0, x1, x2⟩ := rnd_step (q := fm * 30) (B := 31) (by linarith) (by linarith) (by norm_num)
  norm_num at x1 x2
  obtain ⟨mrd, r0, r1, r2⟩ := timestampRound_near (x := x) (by linarith) (by linarith)
  norm_num at r1 r2
  have ht := truncQ_facts mrd
  have hk : -31 ≤ truncQ mrd ∧ truncQ mrd ≤ 31 := by
    rcases ht with ⟨u, v, w, z⟩ | ⟨u, v, w, z⟩
    · have : (truncQ mrd : Rat) ≤ 31 := by linarith
      have : truncQ mrd ≤ 31 := by exact_mod_cast this
      omega
    · have : (-31 : Rat) ≤ truncQ mrd := by linarith
      have : -31 ≤ truncQ mrd := by exact_mod_cast this
      omega
  have hfr : -1 < mrd - truncQ mrd ∧ mrd - truncQ mrd < 1 := by
    rcases ht with ⟨u, v, w, z⟩ | ⟨u, v, w, z⟩ <;> constructor <;> linarith
  obtain ⟨fd, g0, g1, g2⟩ := rnd_step (q := d - rd) (B := 1) (by linarith) (by linarith) (by norm_num)
  norm_num at g1 g2
  obtain ⟨y1, h0, h1, h2⟩ := rnd_step (q := fd + mrd) (B := 33) (by linarith) (by linarith) (by norm_num)
  norm_num at h1 h2
  have hlo := hfr.1
  have hhi := hfr.2
  obtain ⟨y2, i0, i1, i2⟩ := rnd_step (q := y1 - truncQ mrd) (B := 21 / 10)
    (by linarith) (by linarith) (by norm_num)
  norm_num at i1 i2
  obtain ⟨z, j0, j1, j2⟩ := rnd_step (q := y2 * 86400) (B := 185000) (by linarith) (by linarith) (by norm_num)
  norm_num at j1 j2
  obtain ⟨sec, l0, l1, l2⟩ := timestampRound_near (x := z) (by linarith) (by linarith)
  norm_num at l1 l2
  obtain ⟨k2, s, k21, k22, hcarry, c1, c2, c3, c4⟩ := carryDays_spec p rd (s := sec) (by linarith) (by linarith)
  norm_num at c1 c2
  have ekt : (F64.fin mrd).toI32 = truncQ mrd := toI32_small (by linarith) (by linarith)
  refine ⟨truncQ mrd, k2, s, hk.1, hk.2, k21, k22, ?_, ?_, ?_, c3, c4⟩
  · intro hi1 hi2
    unfold Interval.cascade
    rw [ofInt_ok (n := rm) (by omega), ofInt_ok (n := rd) (by omega), e30, e864]
    have s1 : (F64.fin m).sub (.fin (rm : Rat)) = .fin fm := by
      unfold F64.sub F64.neg F64.add
      simp only
      rw [← sub_eq_add_neg, f1]
    have s2 : (F64.fin fm).mul (.fin ((30 : Int) : Rat)) = .fin x := by
      unfold F64.mul
      simp only
      push_cast
      exact x0
    have s3 : (F64.fin d).sub (.fin (rd : Rat)) = .fin fd := by
      unfold F64.sub F64.neg F64.add
      simp only
      rw [← sub_eq_add_neg, g0]
    have s4 : (F64.fin fd).add (.fin mrd) = .fin y1 := by
      unfold F64.add
      simp only
      exact h0
    have s5 : (F64.fin y1).sub (.fin (truncQ mrd : Rat)) = .fin y2 := by
      unfold F64.sub F64.neg F64.add
      simp only
      rw [← sub_eq_add_neg, i0]
    have s6 : (F64.fin y2).mul (.fin ((86400 : Int) : Rat)) = .fin z := by
      unfold F64.mul
      simp only
      push_cast
      exact j0
    simp only [s1, s2, r0, s3, s4, ekt]
    rw [ofInt_ok (n := truncQ mrd) (by omega), s5, s6, l0, hcarry hi1]
    simp only [Res.bind_ok]
    unfold In32 at hi2
    rw [chk32_ok hi2]
    rfl
  · linarith
  · linarith

end F64
end Pg
