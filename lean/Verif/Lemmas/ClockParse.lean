import Verif.Lemmas.Number
import Verif.Lemmas.CacheSim

/-! # Reading clock times -/

namespace Pg
open Spec

/-- A fraction: nothing, or a dot and digits. -/
def fracBytes : Option Bytes → Bytes
  | none => []
  | some fs => 46 :: fs

/-- The digits of a fraction. -/
def fracDigits : Option Bytes → Bytes
  | none => []
  | some fs => fs

/-- Text `hh:mm:ss[.f]`. -/
def hmsBytes (hh mm ss : Bytes) (f : Option Bytes) : Bytes :=
  hh ++ 58 :: (mm ++ 58 :: (ss ++ fracBytes f))

/-- Microseconds of a fraction. -/
def fracMicros (f : Option Bytes) : Int := roundMicros (fracF64 (fracDigits f))

theorem fracMicros_none : fracMicros none = 0 := by decide +kernel

theorem fracMicros_bounds {f : Option Bytes} (h : Digits (fracDigits f)) (hl : (fracDigits f).length ≤ 7) :
    0 ≤ fracMicros f ∧ fracMicros f ≤ 1000000 := by
  obtain ⟨k, h1, h2, -⟩ := roundMicros_frac h hl
  unfold fracMicros
  rw [h1]
  have := value_lt h
  have hp : 0 < 10 ^ (fracDigits f).length := Nat.pos_of_ne_zero (by positivity)
  generalize 10 ^ (fracDigits f).length = D at *
  have h3 : 2 * k * D < (2 * 1000000 + 1) * D := by
    have e : (2 * 1000000 + 1) * D = 2 * D * 1000000 + D := by ring
    rw [e]
    refine lt_of_le_of_lt h2 ?_
    omega
  have := Nat.lt_of_mul_lt_mul_right h3
  omega

theorem timeB_digits {ds : Bytes} (h : Digits ds) : ∀ b ∈ ds, isTimeB b = true := by
  intro b hb
  unfold isTimeB
  rw [digits_isDigit h b hb]; rfl

theorem stops_frac (f : Option Bytes) : Stops isDigit (fracBytes f) := by
  cases f with
  | none => exact Stops.nil _
  | some fs => exact Stops.cons rfl

theorem timeSeconds_ok {ss : Bytes} {f : Option Bytes} (h : Digits ss) (hne : ss ≠ [])
    (hl : ss.length ≤ 10) (hv : value ss ≤ 2147483647) (hf : Digits (fracDigits f))
    (hfl : (fracDigits f).length ≤ 7) (t : TimeS) :
    timeSeconds (ss ++ fracBytes f) t =
      (.ok (), { t with tm := { t.tm with sec := value ss }, fsec := fracMicros f }) := by
  unfold timeSeconds
  rw [str2i32_ok h hne (stops_frac f) hl hv, St.lift_ok_bind]
  simp only
  rw [St.mod_bind]
  cases f with
  | none =>
    simp only [fracBytes, St.mod_run, fracMicros_none]
  | some fs =>
    simp only [fracBytes, if_true]
    change fs.length ≤ 7 at hfl
    rw [parseFractionalSecond_eq (fs := fs) hf, if_pos hfl, St.lift_ok_bind]
    rfl

theorem timeSeconds_err {ss : Bytes} {f : Option Bytes} (h : Digits ss) (hne : ss ≠ [])
    (hf : Digits (fracDigits f))
    (hbad : ¬ (ss.length ≤ 10 ∧ value ss ≤ 2147483647 ∧ (fracDigits f).length ≤ 7)) (t : TimeS) :
    ∃ t', timeSeconds (ss ++ fracBytes f) t = (.err .overflow, t') := by
  unfold timeSeconds
  rw [str2i32_digits h hne (stops_frac f)]
  by_cases h1 : ss.length ≤ 10 ∧ value ss ≤ 2147483647
  · rw [if_pos h1, St.lift_ok_bind]
    simp only
    rw [St.mod_bind]
    cases f with
    | none => exact absurd ⟨h1.1, h1.2, by simp [fracDigits]⟩ hbad
    | some fs =>
      simp only [fracBytes, if_true]
      rw [parseFractionalSecond_eq (fs := fs) hf, if_neg (fun hc : fs.length ≤ 7 => hbad ⟨h1.1, h1.2, hc⟩)]
      exact ⟨_, rfl⟩
  · rw [if_neg h1]; exact ⟨_, rfl⟩

/-- The parts of a clock text are short enough to be read. -/
def Readable (hh mm ss : Bytes) (f : Option Bytes) : Prop :=
  hh.length ≤ 10 ∧ mm.length ≤ 10 ∧ ss.length ≤ 10 ∧ (fracDigits f).length ≤ 7

theorem decodeTime_ok {hh mm ss : Bytes} {f : Option Bytes} (h1 : Digits hh) (n1 : hh ≠ [])
    (h2 : Digits mm) (n2 : mm ≠ []) (h3 : Digits ss) (n3 : ss ≠ []) (hf : Digits (fracDigits f))
    (hr : Readable hh mm ss f) (vh : value hh ≤ 2147483647) (vm : value mm ≤ 59) (vs : value ss ≤ 60)
    (range : Nat) (t : TimeS) :
    decodeTime (hmsBytes hh mm ss f) range t =
      (.ok (), ⟨DTK_TIME_M, { t.tm with hour := value hh, min := value mm, sec := value ss },
        fracMicros f⟩) := by
  obtain ⟨l1, l2, l3, l4⟩ := hr
  have hb := fracMicros_bounds hf l4
  unfold decodeTime hmsBytes
  rw [St.mod_bind, str2i32_ok h1 n1 (Stops.cons rfl) l1 vh, St.lift_ok_bind]
  simp only
  rw [St.mod_bind, str2i32_ok h2 n2 (Stops.cons rfl) l2 (by omega), St.lift_ok_bind]
  simp only
  rw [St.mod_bind]
  have e : timeTail (58 :: (ss ++ fracBytes f)) range = timeSeconds (ss ++ fracBytes f) := by
    unfold timeTail; rfl
  rw [e, St.bind_ok (timeSeconds_ok h3 n3 l3 (by omega) hf l4 _), St.get_bind, St.ite_run, if_neg]
  · rfl
  · unfold badTime
    simp only [Bool.or_eq_true, decide_eq_true_eq]
    omega

theorem decodeTime_err {hh mm ss : Bytes} {f : Option Bytes} (h1 : Digits hh) (n1 : hh ≠ [])
    (h2 : Digits mm) (n2 : mm ≠ []) (h3 : Digits ss) (n3 : ss ≠ []) (hf : Digits (fracDigits f))
    (hbad : ¬ (Readable hh mm ss f ∧ value hh ≤ 2147483647 ∧ value mm ≤ 59 ∧ value ss ≤ 60))
    (range : Nat) (t : TimeS) :
    ∃ e t', decodeTime (hmsBytes hh mm ss f) range t = (.err e, t') := by
  unfold decodeTime hmsBytes
  rw [St.mod_bind, str2i32_digits h1 n1 (Stops.cons rfl)]
  by_cases c1 : hh.length ≤ 10 ∧ value hh ≤ 2147483647
  · rw [if_pos c1, St.lift_ok_bind]
    simp only
    rw [St.mod_bind, str2i32_digits h2 n2 (Stops.cons rfl)]
    by_cases c2 : mm.length ≤ 10 ∧ value mm ≤ 2147483647
    · rw [if_pos c2, St.lift_ok_bind]
      simp only
      rw [St.mod_bind]
      have e : timeTail (58 :: (ss ++ fracBytes f)) range = timeSeconds (ss ++ fracBytes f) := by
        unfold timeTail; rfl
      rw [e]
      by_cases c3 : ss.length ≤ 10 ∧ value ss ≤ 2147483647 ∧ (fracDigits f).length ≤ 7
      · rw [St.bind_ok (timeSeconds_ok h3 n3 c3.1 c3.2.1 hf c3.2.2 _), St.get_bind, St.ite_run, if_pos]
        · exact ⟨_, _, rfl⟩
        · unfold badTime
          simp only [Bool.or_eq_true, decide_eq_true_eq]
          by_contra hc
          apply hbad
          unfold Readable
          omega
      · obtain ⟨t', ht⟩ := timeSeconds_err (f := f) h3 n3 hf c3 _
        exact ⟨_, _, St.bind_err ht⟩
    · rw [if_neg c2]; exact ⟨_, _, rfl⟩
  · rw [if_neg c1]; exact ⟨_, _, rfl⟩

/-- A text of clock characters that starts with a digit and has a colon after the first digits is one
time field. -/
theorem scan_time (u : TokenField) {hh r : Bytes} (h : Digits hh) (hne : hh ≠ [])
    (hr : ∀ b ∈ r, isTimeB b = true) (hl : (hh ++ 58 :: r).length ≤ 128) :
    scan u (hh ++ 58 :: r) = .ok [(.time, hh ++ 58 :: r)] := by
  obtain ⟨c, t, e, hd, hs, -, -⟩ := digit_head (r := 58 :: r) h hne
  have hw : ∀ b ∈ 58 :: r, isTimeB b = true := by
    intro b hb
    rcases List.mem_cons.1 hb with rfl | hb
    · rfl
    · exact hr b hb
  unfold scan
  rw [if_neg (by rw [e]; simp)]
  unfold scanLoop
  have e0 : (hh ++ 58 :: r).dropWhile isSpace = c :: t := by rw [e]; exact dropWhile_stop (Stops.cons hs)
  rw [e0]
  simp only
  rw [if_neg (by omega), if_pos (by rw [hd]; rfl), if_neg (by omega)]
  have e1 : scanField u c (c :: t) = .ok ((.time, hh ++ 58 :: r), []) := by
    unfold scanField
    rw [if_pos hd, ← e]
    unfold scanDigit
    rw [takeWhile_span (digits_isDigit h) (Stops.cons rfl), dropWhile_span (digits_isDigit h) (Stops.cons rfl)]
    simp only [if_true]
    rw [takeWhile_all hw, dropWhile_all hw]
  rw [e1, Res.bind_ok]
  simp only
  rw [if_neg (by omega)]
  cases hh ++ 58 :: r with
  | nil => rfl
  | cons _ _ => rfl

theorem hms_timeB {mm ss : Bytes} {f : Option Bytes} (h2 : Digits mm) (h3 : Digits ss)
    (hf : Digits (fracDigits f)) : ∀ b ∈ mm ++ 58 :: (ss ++ fracBytes f), isTimeB b = true := by
  intro b hb
  rcases List.mem_append.1 hb with hb | hb
  · exact timeB_digits h2 b hb
  rcases List.mem_cons.1 hb with rfl | hb
  · rfl
  rcases List.mem_append.1 hb with hb | hb
  · exact timeB_digits h3 b hb
  cases f with
  | none => cases hb
  | some fs =>
    rcases List.mem_cons.1 hb with rfl | hb
    · rfl
    · exact timeB_digits hf b hb

theorem two_value {v : Int} (h : 0 ≤ v) : (value (two v) : Int) = v := by
  unfold two padText
  rw [value_replicate, natText_value]
  omega

theorem two_ne (v : Int) : two v ≠ [] := by
  unfold two padText
  have := natText_ne v.natAbs
  simp [this]

theorem fracMicros_exact {f : Option Bytes} (h : Digits (fracDigits f)) (hl : (fracDigits f).length ≤ 6) :
    fracMicros f = (value (fracDigits f) * 10 ^ (6 - (fracDigits f).length) : Nat) :=
  roundMicros_exact h hl

/-- The fraction printed for `us` microseconds. -/
def fracOf (us : Int) : Option Bytes :=
  if us = 0 then none else some (stripZeros (padText 6 us.natAbs))

theorem fracOf_bytes (us : Int) : fracBytes (fracOf us) = fracText us.natAbs := by
  unfold fracOf fracText
  by_cases h : us = 0
  · subst h; rfl
  · rw [if_neg h, if_neg (by omega)]; rfl

theorem fracOf_digits (us : Int) : Digits (fracDigits (fracOf us)) := by
  unfold fracOf
  by_cases h : us = 0
  · rw [if_pos h]; intro b hb; cases hb
  · rw [if_neg h]; exact strip_digits (padText_digits _ _)

theorem fracOf_len {us : Int} (h0 : 0 ≤ us) (h1 : us ≤ 999999) :
    (fracDigits (fracOf us)).length ≤ 6 := by
  unfold fracOf
  by_cases h : us = 0
  · rw [if_pos h]; simp [fracDigits]
  · rw [if_neg h]
    have := strip_len (padText 6 us.natAbs)
    have := (padText_padded 6 (by omega) us.natAbs).2.2.1 (by omega)
    show (stripZeros (padText 6 us.natAbs)).length ≤ 6
    omega

theorem fracOf_micros {us : Int} (h0 : 0 ≤ us) (h1 : us ≤ 999999) : fracMicros (fracOf us) = us := by
  rw [fracMicros_exact (fracOf_digits us) (fracOf_len h0 h1)]
  unfold fracOf
  by_cases h : us = 0
  · rw [if_pos h, h]; rfl
  · rw [if_neg h]
    have hpl : (padText 6 us.natAbs).length = 6 :=
      (padText_padded 6 (by omega) us.natAbs).2.2.1 (by omega)
    have hsv := strip_value (padText 6 us.natAbs)
    rw [hpl] at hsv
    rw [padText, value_replicate, natText_value, ← padText] at hsv
    simp only [fracDigits]
    rw [hsv]
    omega

/-- A printed clock reading. -/
theorem clockText_hms (t : Clock) :
    clockText t = hmsBytes (two t.h) (two t.mi) (two t.s) (fracOf t.us) := by
  unfold clockText hmsBytes secText
  rw [fracOf_bytes]
  simp [two]

end Pg
