import Verif.Lemmas.IntervalSql
import Verif.Lemmas.F64Micro

/-! # Reading back intervals printed in the verbose style -/

namespace Pg
open Spec

variable {p : Profile} {range : Nat}

/-- A value close to a whole number of microseconds is rounded to it. -/
theorem roundMicros_close {x : Rat} {k : Int} (hk : -100000000 ≤ k ∧ k ≤ 100000000)
    (h : |x - k / 1000000| ≤ 1 / 10000000000) : roundMicros (.fin x) = k := by
  rw [abs_le] at h
  have hk' : (-100000000 : Rat) ≤ k ∧ (k : Rat) ≤ 100000000 := by
    constructor
    · exact_mod_cast hk.1
    · exact_mod_cast hk.2
  have e : (k : Rat) / 1000000 * 1000000 = k := div_mul_cancel₀ _ (by norm_num)
  have hb : |x * 1000000| ≤ 100000001 := by rw [abs_le]; constructor <;> linarith
  obtain ⟨t, f1, f2⟩ := F64.rnd_near (q := x * 1000000) (le_trans hb (by norm_num))
  have f3 : |t - x * 1000000| ≤ 1 / 10000000 := by
    refine le_trans f2 ?_
    have : |x * 1000000| / 2 ^ 53 ≤ 100000001 / 2 ^ 53 := div_le_div_of_nonneg_right hb (by norm_num)
    refine le_trans (add_le_add_left this _) ?_
    norm_num
  rw [abs_le] at f3
  have f4 : F64.roundAway t = k := by
    refine F64.roundAway_near ?_
    rw [abs_lt]; constructor <;> linarith
  unfold roundMicros F64.mul
  simp only
  rw [f1]
  unfold F64.round F64.toI64
  simp only [F64.truncQ_int, f4]
  unfold F64.clamp
  rw [if_neg (by omega), if_neg (by omega)]

/-- The float of a quotient. -/
theorem div_close {n d : Nat} (hn : n ≤ 9007199254740992) (hd : 1 ≤ d ∧ d ≤ 9007199254740992)
    (hq : n ≤ 100 * d) :
    ∃ s : Rat, (F64.ofInt n).div (F64.ofInt d) = .fin s ∧ |s - (n : Rat) / d| ≤ 1 / 10000000000000 := by
  rw [F64.ofInt_ok (n := (n : Int)) (by omega), F64.ofInt_ok (n := (d : Int)) (by omega)]
  have d0 : (0 : Rat) < d := by exact_mod_cast hd.1
  have hq0 : (0 : Rat) ≤ (n : Rat) / d := by positivity
  have hq1 : (n : Rat) / d ≤ 100 := by
    rw [div_le_iff₀ d0]; exact_mod_cast hq
  have ha : |(n : Rat) / d| ≤ 100 := by rw [abs_of_nonneg hq0]; exact hq1
  obtain ⟨s, e1, e2⟩ := F64.rnd_near (q := (n : Rat) / d) (le_trans ha (by norm_num))
  refine ⟨s, ?_, ?_⟩
  · unfold F64.div
    simp only
    rw [if_neg (by exact_mod_cast d0.ne'), ← e1]
    push_cast; rfl
  · refine le_trans e2 ?_
    have : |(n : Rat) / d| / 2 ^ 53 ≤ 100 / 2 ^ 53 := div_le_div_of_nonneg_right ha (by norm_num)
    refine le_trans (add_le_add_left this _) ?_
    norm_num

/-- The microseconds of a fraction with a minus sign. -/
theorem fracMicros_neg {us : Nat} (h : us ≤ 999999) :
    roundMicros (fracF64 (fracDigits (fracOf us))).neg = -(us : Int) := by
  by_cases h0 : us = 0
  · subst h0; decide +kernel
  · have hfo : fracOf us = some (stripZeros (padText 6 us)) := by
      unfold fracOf; rw [if_neg (by omega)]; rfl
    have hd := fracOf_digits us
    have hl := fracOf_len (us := us) (by omega) (by omega)
    have hm := fracOf_micros (us := us) (by omega) (by omega)
    rw [fracMicros_exact hd hl] at hm
    generalize fracDigits (fracOf us) = fs at *
    have hm' : value fs * 10 ^ (6 - fs.length) = us := by exact_mod_cast hm
    have hne : fs ≠ [] := by
      rintro rfl
      simp [value] at hm'
      omega
    have e6 : (10 : Nat) ^ (6 - fs.length) * 10 ^ fs.length = 1000000 := by
      rw [← pow_add, show 6 - fs.length + fs.length = 6 by omega]; rfl
    have hv := value_lt hd
    have hp : 1 ≤ 10 ^ fs.length := Nat.one_le_pow _ _ (by omega)
    have hp6 : 10 ^ fs.length ≤ 10 ^ 6 := Nat.pow_le_pow_right (by omega) hl
    obtain ⟨s, s1, s2⟩ := div_close (n := value fs) (d := 10 ^ fs.length) (by omega) (by omega) (by omega)
    have hF : fracF64 fs = .fin s := by
      unfold fracF64
      rw [if_neg hne, ← s1]
      push_cast; rfl
    rw [hF]
    refine roundMicros_close (k := -(us : Int)) (by omega) ?_
    have hq : (value fs : Rat) / ((10 ^ fs.length : Nat) : Rat) = us / 1000000 := by
      rw [div_eq_div_iff (by positivity) (by norm_num), ← hm']
      have : (1000000 : Rat) = ((10 ^ (6 - fs.length) * 10 ^ fs.length : Nat) : Rat) := by rw [e6]; norm_num
      rw [this]
      push_cast; ring
    rw [hq] at s2
    rw [abs_le] at s2 ⊢
    push_cast
    constructor <;> linarith

/-- The field of the seconds. -/
def secField (sg : Option Bool) (b : Bytes) : Field :=
  match sg with
  | none => (.number, b)
  | some neg => (.tz, (if neg then 45 else 43) :: b)

theorem secText_frac (n us : Nat) : secText false n us = natText n ++ fracBytes (fracOf us) := by
  unfold secText; rw [fracOf_bytes]; rfl

theorem sec_scans (k : TokenField) (sg : Option Bool) {n us : Nat} {rest : Bytes} {l : List Field} (hr : Gap rest)
    (h : Scans k rest l) :
    Scans k (sgBytes sg ++ (secText false n us ++ rest)) (secField sg (secText false n us) :: l) := by
  rw [secText_frac]
  have hfd := fracOf_digits us
  have hn := natText_digits n
  have nn := natText_ne n
  cases sg with
  | none =>
    show Scans k (natText n ++ fracBytes (fracOf us) ++ rest) ((.number, natText n ++ fracBytes (fracOf us)) :: l)
    cases hf : fracOf us with
    | none =>
      simp only [fracBytes, List.append_nil]
      exact Scans.number hn nn (hr.stops rfl) h
    | some fs =>
      rw [hf] at hfd
      simp only [fracBytes, fracDigits] at hfd ⊢
      have hfne : fs ≠ [] := by
        rintro rfl
        unfold fracOf at hf
        split at hf
        · cases hf
        · rename_i hne
          have e0 : stripZeros (padText 6 us) = [] := by simpa using hf
          have hv := strip_value (padText 6 us)
          rw [e0, padText_value] at hv
          simp [value] at hv
          omega
      rw [List.append_assoc]
      refine Scans.digit hn nn ?_ (by simp; omega) (by simp) h
      rw [List.cons_append, scanDigit, takeWhile_span (digits_isDigit hn) (Stops.cons rfl),
        dropWhile_span (digits_isDigit hn) (Stops.cons rfl)]
      simp only
      obtain ⟨x, t, e, hx, -⟩ := digit_head (r := rest) hfd hfne
      have hd := hr.stops (q := isDigit) rfl
      have hsd : scanDelim 46 (fs ++ rest) = (.number, 46 :: fs, rest) := by
        rw [e, scanDelim, if_pos hx, ← e, dropWhile_span (digits_isDigit hfd) hd,
          takeWhile_span (digits_isDigit hfd) hd]
        simp only
        rw [if_neg (by rcases hr with rfl | ⟨r', rfl⟩ <;> simp)]
        rfl
      rw [hsd]
      rfl
  | some neg =>
    obtain ⟨x, t, e', hx, -⟩ := digit_head (r := fracBytes (fracOf us)) hn nn
    refine Scans.signed (by cases neg <;> simp) ⟨x, t, e', hx⟩ ?_ (hr.stops rfl) h
    intro b hb
    rcases List.mem_append.1 hb with hb | hb
    · exact digits_signed hn b hb
    cases hf : fracOf us with
    | none => rw [hf] at hb; cases hb
    | some fs =>
      rw [hf] at hb hfd
      rcases List.mem_cons.1 hb with rfl | hb
      · rfl
      · exact digits_signed hfd b hb

/-- The fraction of the seconds as a float. -/
def secFrac (sg : Option Bool) (us : Nat) : F64 :=
  if us = 0 then .fin 0
  else if sg = some true then (fracF64 (fracDigits (fracOf us))).neg else fracF64 (fracDigits (fracOf us))

theorem secFrac_micros (sg : Option Bool) {us : Nat} (h : us ≤ 999999) :
    roundMicros (secFrac sg us) = sgVal sg us := by
  unfold secFrac sgVal
  by_cases h0 : us = 0
  · subst h0
    rw [if_pos rfl]
    have : roundMicros (.fin 0) = 0 := by decide +kernel
    rw [this]; split <;> rfl
  · rw [if_neg h0]
    by_cases hs : sg = some true
    · rw [if_pos hs, if_pos hs]; exact fracMicros_neg h
    · rw [if_neg hs, if_neg hs]
      exact fracOf_micros (us := us) (by omega) (by omega)

theorem secField_snd (sg : Option Bool) (b : Bytes) : (secField sg b).2 = sgBytes sg ++ b := by
  cases sg <;> rfl

theorem secParts (sg : Option Bool) {n us : Nat} (hn : n ≤ 2147483647) (hu : us ≤ 999999) :
    numberParts p (secField sg (secText false n us)).2 = .ok (sgVal sg n, secFrac sg us, false) := by
  have hd := natText_digits n
  have nn := natText_ne n
  have hv := natText_value n
  have hl := natText_len10 (n := n) (by omega)
  by_cases h0 : us = 0
  · subst h0
    have e : secField sg (secText false n 0) = numField sg (natText n) := by
      have : secText false n 0 = natText n := by simp [secText, fracText]
      rw [this]; cases sg <;> rfl
    rw [e, numberParts_sg sg hd nn hl (by omega), hv]
    rfl
  · obtain ⟨fs, hfs⟩ : ∃ fs, fracOf us = some fs := ⟨_, by unfold fracOf; rw [if_neg (by omega)]⟩
    have hfd := fracOf_digits us
    have hfl := fracOf_len (us := us) (by omega) (by omega)
    have hsf : secFrac sg us = if sg = some true then (fracF64 fs).neg else fracF64 fs := by
      unfold secFrac
      rw [if_neg h0, hfs]; rfl
    rw [hsf, secText_frac, hfs]
    rw [hfs] at hfd hfl
    simp only [fracDigits] at hfd hfl
    simp only [fracBytes]
    have h2d := str2d_frac (r := []) hfd (Stops.nil _)
    rw [List.append_nil, if_pos (by omega)] at h2d
    cases sg with
    | none =>
      show numberParts p (natText n ++ 46 :: fs) = _
      unfold numberParts
      rw [str2i32_ok hd nn (Stops.cons rfl) hl (by omega), Res.bind_ok]
      simp only
      have hneg : decide ((natText n ++ 46 :: fs).head? = some 45) = false := by
        obtain ⟨x, t, e, hx, -⟩ := digit_head (r := 46 :: fs) hd nn
        rw [e]
        rw [isDigit_iff] at hx
        simp; omega
      rw [hneg, h2d, if_neg (by omega), if_pos trivial, Res.bind_ok, hv]
      rfl
    | some neg =>
      show numberParts p ((if neg then 45 else 43) :: (natText n ++ 46 :: fs)) = _
      unfold numberParts
      rw [str2i32_signed neg hd (Stops.cons rfl) hl (Or.inl (by omega)), Res.bind_ok]
      simp only
      rw [h2d, if_neg (by omega), if_pos trivial, Res.bind_ok, hv]
      cases neg <;> rfl

theorem sec_kind (sg : Option Bool) (n us : Nat) :
    (secField sg (secText false n us)).1 = .number ∨ (secField sg (secText false n us)).1 = .date ∨
      (secField sg (secText false n us)).1 = .tz ∧ NoColon (secField sg (secText false n us)).2 := by
  cases sg with
  | none => exact Or.inl rfl
  | some neg =>
    refine Or.inr (Or.inr ⟨rfl, ?_⟩)
    unfold NoColon
    rw [List.any_eq_false]
    intro x hx
    simp only [secField] at hx
    have hfd := fracOf_digits us
    have : isDigit x = true ∨ x = 45 ∨ x = 43 ∨ x = 46 := by
      rcases List.mem_cons.1 hx with rfl | hx
      · cases neg <;> simp
      rw [secText_frac] at hx
      rcases List.mem_append.1 hx with hx | hx
      · exact Or.inl (digits_isDigit (natText_digits n) x hx)
      cases hf : fracOf us with
      | none => rw [hf] at hx; cases hx
      | some fs =>
        rw [hf] at hx hfd
        rcases List.mem_cons.1 hx with rfl | hx
        · simp
        · exact Or.inl (digits_isDigit hfd x hx)
    rw [isDigit_iff] at this
    simp; omega

/-- The sign of a field relative to the first one. -/
def vSg (lead neg : Bool) : Option Bool := if neg != lead then some true else none

theorem minus_vSg (lead neg : Bool) : minus (neg != lead) = sgBytes (vSg lead neg) := minus_sg _

/-- The value relative to the first one. -/
def rel (lead : Bool) (v : Int) : Int := if lead then -v else v

theorem vSg_val (lead : Bool) (v : Int) : sgVal (vSg lead (decide (v < 0))) v.natAbs = rel lead v := by
  cases lead with
  | false => exact sgVal_eq (by intro h; simp [vSg, h]) (by intro h; simp [vSg]; omega)
  | true =>
    unfold sgVal rel
    by_cases h : v < 0
    · rw [if_neg (by simp [vSg, h]), if_pos rfl]; omega
    · rw [if_pos (by simp [vSg, h]), if_pos rfl]; omega

/-- The fields of the seconds. -/
def secFields (lead : Bool) (t : Int) : List Field :=
  if t.natAbs % 60000000 = 0 then []
  else [secField (vSg lead (decide (t < 0))) (secText false (ivSec t) (ivMicro t)),
    (.string, plural (unitWord .second) (decide (ivSec t = 1 ∧ ivMicro t = 0)))]

theorem secFields_scans (k : TokenField) (lead : Bool) (t : Int) {rest : Bytes} {l : List Field} (hr : Gap rest)
    (h : Scans k rest l) : Scans k (verboseSecText lead t ++ rest) (secFields lead t ++ l) := by
  unfold verboseSecText secFields
  by_cases h0 : t.natAbs % 60000000 = 0
  · rw [if_pos h0, if_pos h0]; exact h
  · rw [if_neg h0, if_neg h0, minus_vSg]
    obtain ⟨w1, w2, w3⟩ := unit_letters (u := .second) (Or.inr rfl) (decide (ivSec t = 1 ∧ ivMicro t = 0))
    have hw := Scans.wordSpace w1 w2 hr h
    rw [w3] at hw
    have := (sec_scans k (vSg lead (decide (t < 0))) (n := ivSec t) (us := ivMicro t) (Or.inr ⟨_, rfl⟩) hw.space).space
    have e : [32] ++ (sgBytes (vSg lead (decide (t < 0))) ++ (secText false (ivSec t) (ivMicro t) ++
        ([32, 115, 101, 99] ++ if ivSec t = 1 ∧ ivMicro t = 0 then [] else [115]))) ++ rest =
        32 :: (sgBytes (vSg lead (decide (t < 0))) ++ (secText false (ivSec t) (ivMicro t) ++ 32 ::
          (plural (unitWord .second) (decide (ivSec t = 1 ∧ ivMicro t = 0)) ++ rest))) := by
      simp [plural, unitWord]
    rw [e]
    exact this

theorem secText_gap (lead : Bool) (t : Int) {rest : Bytes} (hr : Gap rest) : Gap (verboseSecText lead t ++ rest) := by
  unfold verboseSecText
  by_cases h0 : t.natAbs % 60000000 = 0
  · rw [if_pos h0]; exact hr
  · rw [if_neg h0]
    simp only [List.append_assoc, List.cons_append]
    exact Or.inr ⟨_, rfl⟩

/-- Decoding the seconds. -/
theorem secFields_runs {lead : Bool} {t : Int} {l : List Field} {s0 s : IvS} {b : Bool}
    (hr : IvRuns p range l s0 s) (hs : IvAt s ({}, 0) 0 b) :
    ∃ s' m, IvRuns p range (secFields lead t ++ l) s0 s' ∧
      IvAt s' ({ sec := sgVal (vSg lead (decide (t < 0))) (ivSec t) }, sgVal (vSg lead (decide (t < 0))) (ivMicro t))
        m b ∧ (m = 0 ∧ t.natAbs % 60000000 = 0 ∨ m = 4096 ∨ m = 28672) := by
  obtain ⟨e1, e2, e3, e4⟩ := hs
  obtain ⟨b1, b2, b3⟩ := clock_bounds t
  unfold secFields
  by_cases h0 : t.natAbs % 60000000 = 0
  · rw [if_pos h0]
    have z1 : ivSec t = 0 := by unfold ivSec; omega
    have z2 : ivMicro t = 0 := by unfold ivMicro; omega
    refine ⟨s, 0, hr, ⟨?_, e2, e3, e4⟩, Or.inl ⟨rfl, h0⟩⟩
    rw [e1, z1, z2]
    have : sgVal (vSg lead (decide (t < 0))) ((0 : Nat) : Int) = 0 := by unfold sgVal; split <;> rfl
    rw [this]
  · rw [if_neg h0]
    generalize vSg lead (decide (t < 0)) = sg
    obtain ⟨e, he, hty, hne, hof⟩ := unit_found (u := .second) (Or.inr rfl) (decide (ivSec t = 1 ∧ ivMicro t = 0))
    have hw := hr.cons (step_unit (p := p) (range := range) (s := s) he hty)
    have v1 := sgVal_bounds sg (ivSec t)
    have v2 := sgVal_bounds sg (ivMicro t)
    have hadd : addUnit p .second (sgVal sg (ivSec t)) (secFrac sg (ivMicro t)) s.t =
        (.ok (if secFrac sg (ivMicro t) = .fin 0 then SECOND_M else DTK_ALL_SECS_M),
          ({ sec := sgVal sg (ivSec t) }, sgVal sg (ivMicro t))) := by
      rw [e1]
      simp only [addUnit, addSec, addFsec, secFrac_micros sg b3]
      rw [St.bind_ok (a := ()) (s' := ({ sec := sgVal sg (ivSec t) }, 0))
        (by rw [St.get_bind]; simp only [Int.zero_add]; rw [chk32_ok (by omega), St.lift_ok_bind]; rfl),
        St.bind_ok (a := ()) (s' := ({ sec := sgVal sg (ivSec t) }, sgVal sg (ivMicro t)))
        (by rw [St.get_bind]; simp only [Int.zero_add]; rw [chk64_ok (by omega), St.lift_ok_bind]; rfl)]
      rfl
    obtain ⟨ty, hst⟩ := step_number (p := p) (range := range) (s := { s with tMask := 0, ty := e.value })
      (sec_kind sg (ivSec t) (ivMicro t)) (secParts sg (by omega) b3)
      (by
        simp only [Bool.false_eq_true, if_false]
        rw [if_neg hne]; exact hof)
      hadd (by simp only; rw [e2]; simp)
    refine ⟨_, _, hw.cons hst, ⟨rfl, rfl, e3, e4⟩, Or.inr ?_⟩
    simp only [e2, Nat.zero_or]
    split
    · exact Or.inl rfl
    · exact Or.inr rfl

/-- Fields of one word. -/
def vFields (lead : Bool) (u : TokenField) (v : Int) : List Field :=
  pieceFields u (vSg lead (decide (v < 0))) v

theorem vWord_scans {u k : TokenField} (hu : PlainU u) {lead : Bool} {v : Int} {rest : Bytes}
    {l : List Field} (hr : Gap rest) (h : Scans k rest l) :
    Scans k (verboseWord lead v (unitWord u) ++ rest) (vFields lead u v ++ l) := by
  have := piece_scans (v := v) (sg := vSg lead (decide (v < 0))) hu hr h
  unfold vFields verboseWord
  by_cases h0 : v = 0
  · rw [if_pos h0] at this ⊢
    exact this
  · rw [if_neg h0] at this ⊢
    rw [minus_vSg]
    have e : [32] ++ (sgBytes (vSg lead (decide (v < 0))) ++ (natText v.natAbs ++ ([32] ++ (unitWord u ++
        if v = 1 then [] else [115])))) ++ rest = 32 :: (sgBytes (vSg lead (decide (v < 0))) ++ (natText v.natAbs ++ (32 ::
          (plural (unitWord u) (decide (v = 1)) ++ rest)))) := by
      simp [plural]
    rw [e]
    exact this.space

theorem vWord_gap {w : List Nat} {lead : Bool} {v : Int} {rest : Bytes} (hr : Gap rest) :
    Gap (verboseWord lead v w ++ rest) := by
  unfold verboseWord
  by_cases h0 : v = 0
  · rw [if_pos h0]; exact hr
  · rw [if_neg h0]
    simp only [List.append_assoc, List.cons_append]
    exact Or.inr ⟨_, rfl⟩

/-- The mark `@`. -/
theorem Scans.mark {k : TokenField} {s : Bytes} {l : List Field} (hs : Gap s) (hl : l ≠ []) (h : Scans k s l) :
    Scans k (64 :: s) l := by
  intro fuel cap nf hf hc hn
  simp only [List.length_cons] at hf hc
  obtain ⟨n, rfl⟩ : ∃ n, fuel = n + 1 := ⟨fuel - 1, by omega⟩
  have hpos := List.length_pos_iff.2 hl
  rw [← h n cap nf (by omega) (by omega) hn, scanLoop]
  have e1 : (64 :: s).dropWhile isSpace = 64 :: s := rfl
  rw [e1]
  simp only
  rw [if_neg (by omega), if_neg (by decide), if_pos (by decide)]
  have e2 : (64 :: s).dropWhile isPunct = s := by
    have : (64 :: s) = [64] ++ s := rfl
    rw [this, dropWhile_span (by decide) (hs.stops rfl)]
  rw [e2]

/-- The fields of `ago`. -/
def agoFields (lead : Bool) : List Field := if lead then [(.string, [97, 103, 111])] else []

theorem ago_scans (k : TokenField) (lead : Bool) :
    Scans k (if lead then [32, 97, 103, 111] else []) (agoFields lead) := by
  cases lead with
  | false => exact Scans.nil k
  | true =>
    have := Scans.wordSpace (u := k) (w := [97, 103, 111]) (rest := []) (by unfold Letters; decide) (by simp) (Or.inl rfl)
      (Scans.nil k)
    exact this.space

theorem ago_gap (lead : Bool) : Gap (if lead then [32, 97, 103, 111] else []) := by
  cases lead
  · exact Or.inl rfl
  · exact Or.inr ⟨_, rfl⟩

theorem ago_runs (lead : Bool) : ∃ s, IvRuns p range (agoFields lead) {} s ∧ IvAt s ({}, 0) 0 lead := by
  cases lead with
  | false => exact ⟨_, IvRuns.nil, rfl, rfl, rfl, rfl⟩
  | true =>
    have h : searchDelta [97, 103, 111] = .ok (some ⟨b!"ago", .ago, 0⟩) := by decide +kernel
    exact ⟨_, IvRuns.nil.cons (step_ago h rfl), rfl, rfl, rfl, rfl⟩

theorem rel_rel (lead : Bool) (v : Int) : rel lead (rel lead v) = v := by
  unfold rel; cases lead <;> simp

/-- Clock fields relative to the first field. -/
theorem rel_sum (lead : Bool) (t : Int) :
    ((ivHour t * 60 + ivMin t) * 60 + rel lead (sgVal (vSg lead (decide (t < 0))) (ivSec t))) * 1000000 +
      rel lead (sgVal (vSg lead (decide (t < 0))) (ivMicro t)) = t := by
  have h : ∀ n : Nat, rel lead (sgVal (vSg lead (decide (t < 0))) n) = sgVal (some (decide (t < 0))) n := by
    intro n
    unfold rel sgVal vSg
    by_cases h : t < 0 <;> cases lead <;> simp [h]
  rw [h, h]
  exact clock_sum (by intro h; simp [h]) (by intro h; simp; omega)

/-- Fields of a text in the verbose style. -/
def verboseFields (m d t : Int) : List Field :=
  let l := leadNeg m d t
  vFields l .year (ivYear m) ++ (vFields l .month (ivMon m) ++ (vFields l .day d ++ (vFields l .hour (ivHour t) ++
    (vFields l .minute (ivMin t) ++ (secFields l t ++ agoFields l)))))

theorem verboseText_units {m d t : Int} (h0 : ¬ (m = 0 ∧ d = 0 ∧ t = 0)) {l : Bool} (hl : leadNeg m d t = l) :
    verboseIntervalText m d t = 64 :: (verboseWord l (ivYear m) (unitWord .year) ++
      (verboseWord l (ivMon m) (unitWord .month) ++ (verboseWord l d (unitWord .day) ++
        (verboseWord l (ivHour t) (unitWord .hour) ++ (verboseWord l (ivMin t) (unitWord .minute) ++
          (verboseSecText l t ++ (if l then [32, 97, 103, 111] else []))))))) := by
  unfold verboseIntervalText
  rw [hl, if_neg h0]
  rfl

theorem verbose_scans (k : TokenField) {m d t : Int} (h0 : ¬ (m = 0 ∧ d = 0 ∧ t = 0))
    (hne : verboseFields m d t ≠ []) : Scans k (verboseIntervalText m d t) (verboseFields m d t) := by
  obtain ⟨l, hl⟩ : ∃ l, leadNeg m d t = l := ⟨_, rfl⟩
  rw [verboseText_units h0 hl]
  unfold verboseFields at *
  simp only [hl] at *
  have g0 := ago_gap l
  have g1 := secText_gap l t g0
  have s1 := secFields_scans k l t g0 (ago_scans k l)
  have g2 := vWord_gap (w := unitWord .minute) (lead := l) (v := ivMin t) g1
  have s2 := vWord_scans (u := .minute) (by simp [PlainU]) (lead := l) (v := ivMin t) g1 s1
  have g3 := vWord_gap (w := unitWord .hour) (lead := l) (v := ivHour t) g2
  have s3 := vWord_scans (u := .hour) (by simp [PlainU]) (lead := l) (v := ivHour t) g2 s2
  have g4 := vWord_gap (w := unitWord .day) (lead := l) (v := d) g3
  have s4 := vWord_scans (u := .day) (by simp [PlainU]) (lead := l) (v := d) g3 s3
  have g5 := vWord_gap (w := unitWord .month) (lead := l) (v := ivMon m) g4
  have s5 := vWord_scans (u := .month) (by simp [PlainU]) (lead := l) (v := ivMon m) g4 s4
  have g6 := vWord_gap (w := unitWord .year) (lead := l) (v := ivYear m) g5
  have s6 := vWord_scans (u := .year) (by simp [PlainU]) (lead := l) (v := ivYear m) g5 s5
  exact Scans.mark g6 hne s6

/-- The fields, after the turn of all signs by `ago`. -/
theorem verbose_final (lead : Bool) {y mo d h mi sc mc : Int} (h1 : y.natAbs ≤ 2147483647) (h2 : mo.natAbs ≤ 11)
    (h3 : d.natAbs ≤ 2147483647) (h4 : h.natAbs ≤ 2147483647) (h5 : mi.natAbs ≤ 59) (h6 : sc.natAbs ≤ 59)
    (h7 : mc.natAbs ≤ 999999) {x : TmF} (hx : x = (bump .year (rel lead y) (bump .month (rel lead mo)
      (bump .day (rel lead d) (bump .hour (rel lead h) (bump .minute (rel lead mi) { sec := sc })))), mc)) :
    ∃ t'' : TmF, (if lead then negateAll p x = (.ok (), t'') else t'' = x) ∧
      t''.1.year = y ∧ t''.1.mon = mo ∧ t''.1.mday = d ∧ t''.1.hour = h ∧ t''.1.min = mi ∧
      t''.1.sec = rel lead sc ∧ t''.2 = rel lead mc := by
  subst hx
  cases lead with
  | false =>
    refine ⟨_, rfl, ?_⟩
    simp only [bump, rel, Bool.false_eq_true, if_false, Int.zero_add, and_self]
  | true =>
    have hn : ∀ v : Int, rel true v = -v := fun v => rfl
    simp only [hn, bump, Int.zero_add]
    refine ⟨_, negateAll_ok ?_ ?_ ?_ ?_ ?_ ?_ ?_, ?_⟩
    · simp only; omega
    · simp only [In32]; omega
    · simp only [In32]; omega
    · simp only [In32]; omega
    · simp only [In32]; omega
    · simp only [In32]; omega
    · simp only [In32]; omega
    · simp only [Int.neg_neg, and_self]

/-- A text in the verbose style reads back. -/
theorem verboseIv_read (u : TokenField) {c : Caches} (hc : c.Ok) {a : Interval} (hm : In32 a.month)
    (hd : a.day.natAbs ≤ 2147483647) (ht : MinutesFit a.time)
    (hl : (verboseIntervalText a.month a.day a.time).length ≤ 128) {style : IntervalStyle}
    (hst : style ≠ .sqlStandard) :
    Interval.tryFromStr p u c (verboseIntervalText a.month a.day a.time) (-1) style = .ok a := by
  obtain ⟨m, d, t⟩ := a
  simp only at *
  by_cases h0 : m = 0 ∧ d = 0 ∧ t = 0
  · obtain ⟨rfl, rfl, rfl⟩ := h0
    have e : verboseIntervalText 0 0 0 = [64, 32, 48] := by decide +kernel
    rw [e]
    have hs : scan u [64, 32, 48] = .ok [(.number, [48])] := by cases u <;> decide +kernel
    have hdec : decodeInterval p plainLook (parseRange (-1)) style [(.number, [48])] ({}, ()) =
        (.ok (), ({ fMask := SECOND_M, tMask := SECOND_M, ty := 18 }, ())) := by
      cases p <;> cases style <;> decide +kernel
    exact interval_of hc hs hdec rfl rfl rfl (by simp [In32]) rfl (by simp [In32]) (by simp [In32]) (by simp)
      (by simp) rfl
  obtain ⟨q1, q2, q3⟩ := minutes_parts ht
  obtain ⟨b1, b2, b3⟩ := clock_bounds t
  have hy : (ivYear m).natAbs ≤ 2147483647 := by
    unfold ivYear In32 at *
    have := tdiv_or m 12
    omega
  have hmo : (ivMon m).natAbs ≤ 11 := by
    unfold ivMon
    have := tmod_or m 12
    omega
  have hsum := month_sum m
  generalize hlead : leadNeg m d t = lead
  obtain ⟨s0, r0, a0⟩ := ago_runs (p := p) (range := parseRange (-1)) lead
  obtain ⟨s1, k1, r1, a1, hk1⟩ := secFields_runs (lead := lead) (t := t) r0 a0
  have v1 := sgVal_bounds (vSg lead (decide (t < 0))) (ivSec t)
  have v2 := sgVal_bounds (vSg lead (decide (t < 0))) (ivMicro t)
  have hrs := rel_sum lead t
  generalize sgVal (vSg lead (decide (t < 0))) (ivSec t) = sc at *
  generalize sgVal (vSg lead (decide (t < 0))) (ivMicro t) = mc at *
  have hk1' : k1 = 0 ∨ k1 = 4096 ∨ k1 = 28672 := by omega
  obtain ⟨s2, r2, a2⟩ := piece_runs (u := .minute) (by simp [PlainU]) (sg := vSg lead (decide (ivMin t < 0)))
    (v := ivMin t) r1 a1 (by omega) rfl (by rcases hk1' with rfl | rfl | rfl <;> decide)
  obtain ⟨s3, r3, a3⟩ := piece_runs (u := .hour) (by simp [PlainU]) (sg := vSg lead (decide (ivHour t < 0)))
    (v := ivHour t) r2 a2 (by omega) rfl (by rcases hk1' with rfl | rfl | rfl <;> split <;> decide)
  obtain ⟨s4, r4, a4⟩ := piece_runs (u := .day) (by simp [PlainU]) (sg := vSg lead (decide (d < 0)))
    (v := d) r3 a3 (by omega) rfl (by rcases hk1' with rfl | rfl | rfl <;> split <;> split <;> decide)
  obtain ⟨s5, r5, a5⟩ := piece_runs (u := .month) (by simp [PlainU]) (sg := vSg lead (decide (ivMon m < 0)))
    (v := ivMon m) r4 a4 (by omega) rfl (by rcases hk1' with rfl | rfl | rfl <;> split <;> split <;> split <;> decide)
  obtain ⟨s6, r6, a6⟩ := piece_runs (u := .year) (by simp [PlainU]) (sg := vSg lead (decide (ivYear m < 0)))
    (v := ivYear m) r5 a5 (by omega) rfl
    (by rcases hk1' with rfl | rfl | rfl <;> split <;> split <;> split <;> split <;> decide)
  simp only [vSg_val] at a6
  have hfields : verboseFields m d t = vFields lead .year (ivYear m) ++ (vFields lead .month (ivMon m) ++
      (vFields lead .day d ++ (vFields lead .hour (ivHour t) ++ (vFields lead .minute (ivMin t) ++
        (secFields lead t ++ agoFields lead))))) := by
    unfold verboseFields
    simp only [hlead]
  have r6' : IvRuns p (parseRange (-1)) (verboseFields m d t) {} s6 := by rw [hfields]; exact r6
  have hmask : s6.fMask ≠ 0 := by
    rw [a6.2.1]
    by_cases c1 : ivYear m = 0
    · by_cases c2 : ivMon m = 0
      · by_cases c3 : d = 0
        · by_cases c4 : ivHour t = 0
          · by_cases c5 : ivMin t = 0
            · simp only [c1, c2, c3, c4, c5, if_true]
              have hm0 : m = 0 := by omega
              have ht0 : t ≠ 0 := by tauto
              have : t.natAbs % 60000000 ≠ 0 := by
                unfold ivHour at c4
                unfold ivMin at c5
                have := tdiv_or t 3600000000
                have := tmod_or t 3600000000
                have := tdiv_or (Int.tmod t 3600000000) 60000000
                omega
              rcases hk1 with ⟨-, h⟩ | rfl | rfl
              · exact absurd h this
              · decide
              · decide
            · rw [if_pos c1, if_pos c2, if_pos c3, if_pos c4, if_neg c5]
              rcases hk1' with rfl | rfl | rfl <;> decide
          · rw [if_pos c1, if_pos c2, if_pos c3, if_neg c4]
            rcases hk1' with rfl | rfl | rfl <;> split <;> decide
        · rw [if_pos c1, if_pos c2, if_neg c3]
          rcases hk1' with rfl | rfl | rfl <;> split <;> split <;> decide
      · rw [if_pos c1, if_neg c2]
        rcases hk1' with rfl | rfl | rfl <;> split <;> split <;> split <;> decide
    · rw [if_neg c1]
      rcases hk1' with rfl | rfl | rfl <;> split <;> split <;> split <;> split <;> decide
  have hne : verboseFields m d t ≠ [] := by
    intro hcn
    rw [hcn] at r6'
    have := r6' 0
    simp only [intervalLoop, St.pure_run, Prod.mk.injEq, true_and, and_true] at this
    rw [← this] at hmask
    exact hmask rfl
  have hlen : (verboseFields m d t).length ≤ 25 := by
    rw [hfields]
    have l1 := pieceFields_len .year (vSg lead (decide (ivYear m < 0))) (ivYear m)
    have l2 := pieceFields_len .month (vSg lead (decide (ivMon m < 0))) (ivMon m)
    have l3 := pieceFields_len .day (vSg lead (decide (d < 0))) d
    have l4 := pieceFields_len .hour (vSg lead (decide (ivHour t < 0))) (ivHour t)
    have l5 := pieceFields_len .minute (vSg lead (decide (ivMin t < 0))) (ivMin t)
    have l6 : (secFields lead t).length ≤ 2 := by unfold secFields; split <;> simp
    have l7 : (agoFields lead).length ≤ 1 := by unfold agoFields; split <;> simp
    simp only [List.length_append, vFields]
    omega
  have hscan := (verbose_scans u h0 hne).run hne hl hlen
  have hrb : ∀ v : Int, rel lead v = v ∨ rel lead v = -v := by intro v; unfold rel; cases lead <;> simp
  have w1 := hrb (ivYear m)
  have w2 := hrb (ivMon m)
  have w3 := hrb d
  have w4 := hrb (ivHour t)
  have w5 := hrb (ivMin t)
  obtain ⟨t'', hbf, f1, f2, f3, f4, f5, f6, f7⟩ := verbose_final (p := p) lead (sc := sc) (mc := mc) hy hmo hd q3 b1
    (by omega) (by omega) rfl
  obtain ⟨s', hdec, ht', hty⟩ := decode_finish (style := style) (m := s6.fMask) r6' ⟨a6.1, rfl, a6.2.2.1, a6.2.2.2⟩ hmask
    (by simp only; omega) (by simp only [bump, In32]; omega) (sqlSign_other hst hne _) hbf
  have hq6 : rel lead sc = sc ∨ rel lead sc = -sc := hrb sc
  have hq7 : rel lead mc = mc ∨ rel lead mc = -mc := hrb mc
  refine interval_of (tm := t''.1) (f := t''.2) hc hscan hdec ht' hty ?_ hm f3 ?_ ?_ ?_ ?_ ?_
  · rw [f1, f2]; exact hsum
  · rw [f4]; exact q1
  · rw [f4, f5]; exact q2
  · rw [f6]; omega
  · rw [f7]; omega
  · rw [f4, f5, f6, f7]; exact hrs

end Pg
