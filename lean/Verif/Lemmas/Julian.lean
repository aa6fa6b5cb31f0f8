import Verif.Lemmas.Calendar

/-! # Inversion of the Julian day conversion -/

namespace Pg
open Spec

/-- Unchecked core of `julian2date` (proof device; equal to the model by `julian2date_core`). -/
def j2dCore (jd : Int) : Int × Int × Int :=
  let J := jd + 32044
  let q := J / 146097
  let r := J % 146097
  let c := (r * 4 + 3) / 146097
  let s := J + (60 + q * 3 + c)
  let q4 := s / 1461
  let t := s % 1461
  let y0 := t * 4 / 1461
  let k := if y0 ≠ 0 then (t + 305) % 365 + 123 else (t + 306) % 366 + 123
  let mq := k * 2141 / 65536
  (y0 + q4 * 4 - 4800, (mq + 10) % 12 + 1, k - 7834 * mq / 256)

theorem sub_div_mul (a b : Int) : a - a / b * b = a % b := by
  have := Int.mul_ediv_add_emod a b
  rw [Int.mul_comm] at this
  omega

theorem julian2date_core (p : Profile) (jd : Int) (h0 : 0 ≤ jd) (h1 : jd ≤ 2147483647) :
    julian2date p jd = .ok (j2dCore jd) := by
  unfold julian2date j2dCore
  simp (disch := omega) only [wrapU32_of_in, wrap32_of_in, chkU32_ok, chk32_ok, Res.bind_ok, Res.pure_eq]
  simp only [sub_div_mul]
  split <;> rfl

set_option maxHeartbeats 8000000 in
theorem j2d_y_aux (q r c u k4 t y0 k : Int) (hr0 : 0 ≤ r) (hr1 : r < 146097)
   (hc : c = (r * 4 + 3) / 146097) (hu : u = r + 60 + c) (hk4 : k4 = u / 1461) (ht : t = u % 1461)
   (hy0 : y0 = t * 4 / 1461)
   (hk : k = if y0 ≠ 0 then (t + 305) % 365 + 123 else (t + 306) % 366 + 123)
   (mq : Int) (hmq : mq = k * 2141 / 65536) (y m d : Int) (hy : y = y0 + (100 * q + k4) * 4 - 4800)
   (hm : m = (mq + 10) % 12 + 1) (hd : d = k - 7834 * mq / 256) :
   jdn y m d = 146097 * q + r - 32044 ∧ 1 ≤ m ∧ m ≤ 12 ∧ 1 ≤ d ∧ d ≤ monthDays y m := by
  have hc' : c = 0 ∨ c = 1 ∨ c = 2 ∨ c = 3 := by omega
  have hy0' : y0 = 0 ∨ y0 = 1 ∨ y0 = 2 ∨ y0 = 3 := by omega
  have hk' : 123 ≤ k ∧ k ≤ 488 := by split at hk <;> omega
  have hmq' : mq = 4 ∨ mq = 5 ∨ mq = 6 ∨ mq = 7 ∨ mq = 8 ∨ mq = 9 ∨ mq = 10 ∨ mq = 11 ∨ mq = 12 ∨ mq = 13 ∨ mq = 14 ∨ mq = 15 := by omega
  have hm1 : 1 ≤ m ∧ m ≤ 12 := by omega
  rw [jdn_closed _ _ _ hm1.1 hm1.2]
  rcases hy0' with h | h | h | h <;> subst h <;> simp at hk <;>
  rcases hmq' with h | h | h | h | h | h | h | h | h | h | h | h <;> subst h <;> simp at hm <;> subst hm <;> simp [monthDays, Leap] <;> omega

theorem j2dCore_spec (jd : Int) :
    let c := j2dCore jd
    jdn c.1 c.2.1 c.2.2 = jd ∧ (⟨c.1, c.2.1, c.2.2⟩ : YMD).Real := by
  intro c
  have hJ := Int.mul_ediv_add_emod (jd + 32044) 146097
  have key := j2d_y_aux ((jd + 32044) / 146097) ((jd + 32044) % 146097)
    (((jd + 32044) % 146097 * 4 + 3) / 146097) _ _ _ _ _ (by omega) (by omega) rfl rfl rfl rfl rfl
    rfl _ rfl _ _ _ rfl rfl rfl
  have hs : (jd + 32044) + (60 + (jd + 32044) / 146097 * 3 + ((jd + 32044) % 146097 * 4 + 3) / 146097)
      = 1461 * (100 * ((jd + 32044) / 146097)) +
        ((jd + 32044) % 146097 + 60 + ((jd + 32044) % 146097 * 4 + 3) / 146097) := by omega
  have hdiv : ∀ a b : Int, (1461 * a + b) / 1461 = a + b / 1461 := by intro a b; omega
  have hmod : ∀ a b : Int, (1461 * a + b) % 1461 = b % 1461 := by intro a b; omega
  have hc : c = j2dCore jd := rfl
  unfold j2dCore at hc
  simp only [hs, hdiv, hmod] at hc
  rw [hc]
  refine ⟨?_, ?_⟩
  · have := key.1
    simp only at this ⊢
    rw [this]; omega
  · exact key.2

theorem julian2date_spec (p : Profile) (jd : Int) (h0 : 0 ≤ jd) (h1 : jd ≤ 2147483647) :
    ∃ y m d, julian2date p jd = .ok (y, m, d) ∧ jdn y m d = jd ∧ (⟨y, m, d⟩ : YMD).Real :=
  ⟨_, _, _, julian2date_core p jd h0 h1, (j2dCore_spec jd).1, (j2dCore_spec jd).2⟩

end Pg
