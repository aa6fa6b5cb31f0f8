import Verif.Lemmas.Scale
import Verif.Lemmas.FractionsF64

/-!
# Signs in `mul_f64` and `div_f64`
-/

namespace Pg
namespace F64

theorem neg_neg' (x : F64) : x.neg.neg = x := by
  cases x <;> simp [neg]

theorem mul_neg' (x y : F64) : x.mul y.neg = (x.mul y).neg := by
  cases x with
  | nan => rfl
  | inf a =>
    cases y with
    | nan => rfl
    | inf b => cases a <;> cases b <;> rfl
    | fin y =>
      unfold mul neg
      simp only [neg_eq_zero]
      by_cases h : y = 0
      · rw [if_pos h, if_pos h]
      · rw [if_neg h, if_neg h]
        simp only [Left.neg_neg_iff, F64.inf.injEq]
        rcases lt_or_gt_of_ne h with h | h
        · rw [decide_eq_true h, decide_eq_false (not_lt.2 h.le)]; cases a <;> rfl
        · rw [decide_eq_false (not_lt.2 h.le), decide_eq_true h]; cases a <;> rfl
  | fin x =>
    cases y with
    | nan => rfl
    | inf b =>
      unfold mul neg
      simp only
      split
      · rfl
      · simp only [F64.inf.injEq]; cases b <;> cases decide (x < 0) <;> rfl
    | fin y =>
      unfold mul
      simp only [neg]
      rw [mul_neg, rnd_neg]
      rfl

theorem mul_comm' (x y : F64) : x.mul y = y.mul x := by
  cases x <;> cases y <;> try rfl
  · rename_i a b; cases a <;> cases b <;> rfl
  · unfold mul; simp only; rw [mul_comm]

theorem neg_mul' (x y : F64) : x.neg.mul y = (x.mul y).neg := by rw [mul_comm', mul_neg', mul_comm']

theorem div_neg' (x : F64) {y : F64} (hy : y ≠ .fin 0) : x.div y.neg = (x.div y).neg := by
  cases x with
  | nan => rfl
  | inf a =>
    cases y with
    | nan => rfl
    | inf b => rfl
    | fin y =>
      have h : y ≠ 0 := fun e => hy (by rw [e])
      unfold div neg
      simp only [Left.neg_neg_iff, F64.inf.injEq]
      rcases lt_or_gt_of_ne h with h | h
      · rw [decide_eq_true h, decide_eq_false (not_lt.2 h.le)]; cases a <;> rfl
      · rw [decide_eq_false (not_lt.2 h.le), decide_eq_true h]; cases a <;> rfl
  | fin x =>
    cases y with
    | nan => rfl
    | inf b => simp [div, neg]
    | fin y =>
      have h : y ≠ 0 := fun e => hy (by rw [e])
      unfold div
      simp only [neg]
      rw [if_neg h, if_neg (neg_ne_zero.2 h), div_neg, rnd_neg]
      rfl

theorem neg_div' (x : F64) {y : F64} (hy : y ≠ .fin 0) : x.neg.div y = (x.div y).neg := by
  cases x with
  | nan => rfl
  | inf a =>
    cases y with
    | nan => rfl
    | inf b => rfl
    | fin y => unfold div neg; simp only [F64.inf.injEq]; cases a <;> cases decide (y < 0) <;> rfl
  | fin x =>
    cases y with
    | nan => rfl
    | inf b => simp [div, neg]
    | fin y =>
      have h : y ≠ 0 := fun e => hy (by rw [e])
      unfold div
      simp only [neg]
      rw [if_neg h, neg_div, rnd_neg, if_neg h]
      rfl

theorem neg_add' (x y : F64) : x.neg.add y.neg = (x.add y).neg := by
  cases x with
  | nan => rfl
  | inf a =>
    cases y with
    | nan => rfl
    | inf b => cases a <;> cases b <;> rfl
    | fin y => rfl
  | fin x =>
    cases y with
    | nan => rfl
    | inf b => rfl
    | fin y =>
      unfold add
      simp only [neg]
      rw [← neg_add, rnd_neg]
      rfl

theorem neg_sub' (x y : F64) : x.neg.sub y.neg = (x.sub y).neg := by
  unfold sub; rw [neg_add']

theorem ofInt_neg (n : Int) : ofInt (-n) = (ofInt n).neg := by
  unfold ofInt; push_cast; exact rnd_neg _

theorem roundAway_neg (x : Rat) : roundAway (-x) = -roundAway x := by
  unfold roundAway
  rcases lt_trichotomy x 0 with h | h | h
  · rw [if_pos (by linarith), if_neg (by linarith)]; simp
  · subst h; decide +kernel
  · rw [if_neg (by linarith), if_pos (by linarith)]; simp

theorem round_neg (x : F64) : x.neg.round = x.round.neg := by
  cases x with
  | nan => rfl
  | inf a => rfl
  | fin x =>
    unfold round
    simp only [neg]
    rw [roundAway_neg]
    push_cast
    rfl

theorem abs_neg' (x : F64) : x.neg.abs = x.abs := by
  cases x with
  | nan => rfl
  | inf a => rfl
  | fin x => unfold abs; simp only [neg]; rw [absQ_eq, absQ_eq, abs_neg]

theorem timestampRound_neg (x : F64) : Interval.timestampRound x.neg = (Interval.timestampRound x).neg := by
  unfold Interval.timestampRound
  rw [neg_mul', round_neg, neg_div' _ (by decide)]

/-- A cast that is not clamped below. -/
theorem toI32_neg {x : F64} (h1 : x.toI32 ≠ -2147483648) (h2 : x.neg.toI32 ≠ -2147483648) : x.neg.toI32 = -x.toI32 := by
  cases x with
  | nan => rfl
  | inf a => cases a <;> first | exact absurd rfl h1 | exact absurd rfl h2
  | fin x =>
    unfold toI32 at *
    simp only [neg] at *
    rw [truncQ_neg] at *
    unfold clamp at *
    repeat' split at h1
    all_goals repeat' split at h2
    all_goals repeat' split
    all_goals omega

theorem toI64_neg {x : F64} (h1 : x.toI64 ≠ -9223372036854775808) (h2 : x.neg.toI64 ≠ -9223372036854775808) : x.neg.toI64 = -x.toI64 := by
  cases x with
  | nan => rfl
  | inf a => cases a <;> first | exact absurd rfl h1 | exact absurd rfl h2
  | fin x =>
    unfold toI64 at *
    simp only [neg] at *
    rw [truncQ_neg] at *
    unfold clamp at *
    repeat' split at h1
    all_goals repeat' split at h2
    all_goals repeat' split
    all_goals omega

theorem chk32_mod {p : Profile} {x y : Int} (h : chk32 p x = .ok y) : In32 y ∧ (y - x) % 4294967296 = 0 := by
  unfold chk32 at h
  split at h
  · cases h; exact ⟨by assumption, by simp⟩
  · cases p
    · cases h
    · cases h; unfold wrap32 In32; omega

end F64

namespace Interval
open F64

/-- The whole and broken days carried from months. -/
def monthDays (m : F64) (rm : Int) : F64 := timestampRound ((m.sub (F64.ofInt rm)).mul (F64.ofInt 30))

/-- The seconds carried from days. -/
def daySecs (mrd d : F64) (rd : Int) : F64 :=
  timestampRound ((((d.sub (F64.ofInt rd)).add mrd).sub (F64.ofInt mrd.toI32)).mul (F64.ofInt 86400))

theorem cascade_eq (p : Profile) (m d : F64) (rm rd : Int) :
    cascade p m d rm rd = (carryDays p rd (daySecs (monthDays m rm) d rd) >>= fun x =>
      chk32 p (x.1 + (monthDays m rm).toI32) >>= fun day => .ok (day, x.2)) := rfl

theorem monthDays_neg (m : F64) (rm : Int) : monthDays m.neg (-rm) = (monthDays m rm).neg := by
  unfold monthDays
  rw [ofInt_neg, neg_sub', neg_mul', timestampRound_neg]

theorem daySecs_neg {mrd : F64} (d : F64) (rd : Int) (h : mrd.neg.toI32 = -mrd.toI32) : daySecs mrd.neg d.neg (-rd) = (daySecs mrd d rd).neg := by
  unfold daySecs
  rw [h, ofInt_neg, ofInt_neg, neg_sub', neg_add', neg_sub', neg_mul', timestampRound_neg]

/-- The carried parts are small. -/
theorem carried_small {m d : Rat} (rm rd : Int)
    (hm1 : -1 < m - rm) (hm2 : m - rm < 1) (hd1 : -1 < d - rd) (hd2 : d - rd < 1)
    (hrm : -2147483648 ≤ rm ∧ rm ≤ 2147483647) (hrd : -2147483648 ≤ rd ∧ rd ≤ 2147483647) :
    ∃ x y : Rat, monthDays (.fin m) rm = .fin x ∧ -32 ≤ x ∧ x ≤ 32 ∧ daySecs (.fin x) (.fin d) rd = .fin y ∧ -190000 ≤ y ∧ y ≤ 190000 := by
  have e30 : F64.ofInt 30 = .fin ((30 : Int) : Rat) := ofInt_ok (by omega)
  have e864 : F64.ofInt 86400 = .fin ((86400 : Int) : Rat) := ofInt_ok (by omega)
  obtain ⟨fm, f1, fm1, fm2⟩ := rnd_step (q := m - rm) (B := 1) (by linarith) (by linarith) (by norm_num)
  norm_num at fm1 fm2
  obtain ⟨x, x0, x1, x2⟩ := rnd_step (q := fm * 30) (B := 31) (by linarith) (by linarith) (by norm_num)
  norm_num at x1 x2
  obtain ⟨mrd, r0, r1, r2⟩ := timestampRound_near (x := x) (by linarith) (by linarith)
  norm_num at r1 r2
  have ht := truncQ_facts mrd
  have hk : -31 ≤ truncQ mrd ∧ truncQ mrd ≤ 31 := by
    rcases ht with ⟨u, v, w, z⟩ | ⟨u, v, w, z⟩
    · have : (truncQ mrd : Rat) ≤ 31 := by linarith
      have : truncQ mrd ≤ 31 := by exact_mod_cast this
      omega
    · have : (-31 : Rat) ≤ truncQ mrd := by linarith
      have : -31 ≤ truncQ mrd := by exact_mod_cast this
      omega
  have hfr : -1 < mrd - truncQ mrd ∧ mrd - truncQ mrd < 1 := by
    rcases ht with ⟨u, v, w, z⟩ | ⟨u, v, w, z⟩ <;> constructor <;> linarith
  obtain ⟨fd, g0, g1, g2⟩ := rnd_step (q := d - rd) (B := 1) (by linarith) (by linarith) (by norm_num)
  norm_num at g1 g2
  obtain ⟨y1, h0, h1, h2⟩ := rnd_step (q := fd + mrd) (B := 33) (by linarith) (by linarith) (by norm_num)
  norm_num at h1 h2
  have hlo := hfr.1
  have hhi := hfr.2
  obtain ⟨y2, i0, i1, i2⟩ := rnd_step (q := y1 - truncQ mrd) (B := 21 / 10)
    (by linarith) (by linarith) (by norm_num)
  norm_num at i1 i2
  obtain ⟨z, j0, j1, j2⟩ := rnd_step (q := y2 * 86400) (B := 185000) (by linarith) (by linarith) (by norm_num)
  norm_num at j1 j2
  obtain ⟨sec, l0, l1, l2⟩ := timestampRound_near (x := z) (by linarith) (by linarith)
  norm_num at l1 l2
  have ekt : (F64.fin mrd).toI32 = truncQ mrd := toI32_small (by linarith) (by linarith)
  refine ⟨mrd, sec, ?_, by linarith, by linarith, ?_, by linarith, by linarith⟩
  · unfold monthDays
    rw [ofInt_ok (n := rm) (by omega), e30]
    have s1 : (F64.fin m).sub (.fin (rm : Rat)) = .fin fm := by
      unfold F64.sub F64.neg F64.add
      simp only
      rw [← sub_eq_add_neg, f1]
    have s2 : (F64.fin fm).mul (.fin ((30 : Int) : Rat)) = .fin x := by
      unfold F64.mul
      simp only
      push_cast
      exact x0
    rw [s1, s2, r0]
  · unfold daySecs
    rw [ofInt_ok (n := rd) (by omega), e864, ekt]
    have s3 : (F64.fin d).sub (.fin (rd : Rat)) = .fin fd := by
      unfold F64.sub F64.neg F64.add
      simp only
      rw [← sub_eq_add_neg, g0]
    have s4 : (F64.fin fd).add (.fin mrd) = .fin y1 := by
      unfold F64.add
      simp only
      exact h0
    have s5 : (F64.fin y1).sub (.fin (truncQ mrd : Rat)) = .fin y2 := by
      unfold F64.sub F64.neg F64.add
      simp only
      rw [← sub_eq_add_neg, i0]
    have s6 : (F64.fin y2).mul (.fin ((86400 : Int) : Rat)) = .fin z := by
      unfold F64.mul
      simp only
      push_cast
      exact j0
    rw [s3, s4, ofInt_ok (n := truncQ mrd) (by omega), s5, s6, l0]

theorem toI32_neg_small {x : Rat} (h1 : -100000 ≤ x) (h2 : x ≤ 100000) : (F64.fin x).neg.toI32 = -(F64.fin x).toI32 := by
  unfold F64.neg
  simp only
  rw [toI32_small h1 h2, toI32_small (by linarith) (by linarith), truncQ_neg]

/-- Carrying days out of the opposite seconds. -/
theorem carryDays_neg {p : Profile} {rd D D' : Int} {y : Rat} {s s' : F64} (h1 : -190000 ≤ y) (h2 : y ≤ 190000)
    (h : carryDays p rd (.fin y) = .ok (D, s)) (h' : carryDays p (-rd) (F64.fin y).neg = .ok (D', s')) :
    s' = s.neg ∧ (D + D') % 4294967296 = 0 := by
  have e0 : F64.ofInt 86400 = .fin ((86400 : Int) : Rat) := ofInt_ok (by omega)
  unfold carryDays at h h'
  rw [abs_neg'] at h'
  split at h
  · rename_i hc
    rw [if_pos hc] at h'
    obtain ⟨a, e1, a1, a2⟩ := rnd_step (q := y / 86400) (B := 3) (by linarith) (by linarith) (by norm_num)
    norm_num at a1 a2
    have ek : (F64.fin y).div (F64.ofInt 86400) = .fin a := by
      rw [e0]
      unfold F64.div
      simp only
      rw [if_neg (by norm_num), show y / ((86400 : Int) : Rat) = y / 86400 by push_cast; rfl, e1]
    have ek' : (F64.fin y).neg.div (F64.ofInt 86400) = (F64.fin a).neg := by
      rw [F64.neg_div' _ (by rw [e0]; intro e; injection e with e; norm_num at e), ek]
    have ht : (F64.fin a).toI32 = truncQ a := toI32_small (by linarith) (by linarith)
    have hk : -4 ≤ truncQ a ∧ truncQ a ≤ 4 := by
      rcases truncQ_facts a with ⟨u, v, w, z⟩ | ⟨u, v, w, z⟩
      · have : (truncQ a : Rat) ≤ 4 := by linarith
        have : truncQ a ≤ 4 := by exact_mod_cast this
        omega
      · have : (-4 : Rat) ≤ truncQ a := by linarith
        have : -4 ≤ truncQ a := by exact_mod_cast this
        omega
    simp only [ek', toI32_neg_small (x := a) (by linarith) (by linarith), ht] at h'
    simp only [ek, ht] at h
    obtain ⟨d1, c1, h⟩ := Res.bind_eq_ok.1 h
    obtain ⟨d2, c2, h'⟩ := Res.bind_eq_ok.1 h'
    rw [chk32_ok (by omega), Res.bind_ok] at h
    rw [chk32_ok (by omega), Res.bind_ok] at h'
    cases h
    cases h'
    obtain ⟨-, c1⟩ := chk32_mod c1
    obtain ⟨-, c2⟩ := chk32_mod c2
    refine ⟨?_, by omega⟩
    rw [show -truncQ a * 86400 = -(truncQ a * 86400) by omega, ofInt_neg, F64.neg_sub']
  · rename_i hc
    rw [if_neg hc] at h'
    cases h
    cases h'
    exact ⟨rfl, by omega⟩

/-- The cascade of opposite months and days. -/
theorem cascade_neg {p : Profile} {m d : Rat} {rm rd D D' : Int} {s s' : F64}
    (hm1 : -1 < m - rm) (hm2 : m - rm < 1) (hd1 : -1 < d - rd) (hd2 : d - rd < 1)
    (hrm : -2147483648 ≤ rm ∧ rm ≤ 2147483647) (hrd : -2147483648 ≤ rd ∧ rd ≤ 2147483647)
    (h : cascade p (.fin m) (.fin d) rm rd = .ok (D, s)) (h' : cascade p (F64.fin m).neg (F64.fin d).neg (-rm) (-rd) = .ok (D', s')) :
    s' = s.neg ∧ In32 D ∧ In32 D' ∧ (D + D') % 4294967296 = 0 := by
  obtain ⟨x, y, h1, h2, h3, h4, h5, h6⟩ := carried_small rm rd hm1 hm2 hd1 hd2 hrm hrd
  have ht := toI32_neg_small (x := x) (by linarith) (by linarith)
  rw [cascade_eq, h1, h4] at h
  rw [cascade_eq, monthDays_neg, h1, daySecs_neg _ _ ht, h4, ht] at h'
  obtain ⟨⟨d1, s1⟩, c1, h⟩ := Res.bind_eq_ok.1 h
  obtain ⟨⟨d2, s2⟩, c2, h'⟩ := Res.bind_eq_ok.1 h'
  obtain ⟨c3, c4⟩ := carryDays_neg h5 h6 c1 c2
  obtain ⟨e1, c5, h⟩ := Res.bind_eq_ok.1 h
  obtain ⟨e2, c6, h'⟩ := Res.bind_eq_ok.1 h'
  cases h
  cases h'
  obtain ⟨k1, c5⟩ := chk32_mod c5
  obtain ⟨k2, c6⟩ := chk32_mod c6
  dsimp only at c5 c6
  exact ⟨c3, k1, k2, by omega⟩

end Interval
end Pg
