import Verif.Spec.JulianFrac
import Verif.Lemmas.FractionsRun
import Verif.Lemmas.LabelClockTime
import Mathlib.Tactic.LinearCombination

/-! # Julian day numbers with a fraction -/

namespace Pg
open Spec

/-- The microseconds that `decode_date_time` computes for a fraction of a day. -/
def julianMicros (fs : Bytes) : Int := ((fracF64 fs).mul (F64.ofInt 86400000000)).toI64

/-- The fraction in ten-millionths. -/
def fracTen (fs : Bytes) : Int := value fs * 10 ^ (7 - fs.length)

theorem fracTen_bound {fs : Bytes} (h : Digits fs) (hl : fs.length ≤ 7) : 0 ≤ fracTen fs ∧ fracTen fs < 10000000 :=
  tenMillionths_bound (x := ⟨⟨none, [], false, .day, []⟩, fs⟩) h hl

theorem fracTen_rnd {fs : Bytes} (h : Digits fs) (hl : fs.length ≤ 7) :
    fracF64 fs = F64.rnd ((fracTen fs : Rat) / 10000000) :=
  fracF64_rnd (x := ⟨⟨none, [], false, .day, []⟩, fs⟩) h hl

theorem fracTen_exact {fs : Bytes} (hl : fs.length ≤ 7) {us : Int} : DayFraction fs us ↔ us = fracTen fs * 8640 := by
  unfold DayFraction fracTen
  have e : (10 : Int) ^ fs.length * 10 ^ (7 - fs.length) = 10000000 := by
    rw [← pow_add, Nat.add_sub_cancel' hl]; norm_num
  have hp : (0 : Int) < 10 ^ fs.length := by positivity
  constructor
  · intro h
    have : us * 10 ^ fs.length = (value fs * 10 ^ (7 - fs.length) * 8640) * 10 ^ fs.length := by
      rw [h]; linear_combination (-(value fs : Int) * 8640) * e
    exact Int.eq_of_mul_eq_mul_right hp.ne' this
  · rintro rfl
    linear_combination ((value fs : Int) * 8640) * e

theorem toI64_floor {t : Rat} {k : Int} (h1 : (k : Rat) - 1 < t) (h2 : t < (k : Rat) + 1) (hk : 1 ≤ k) (hk2 : k ≤ 86400000000) :
    k - 1 ≤ (F64.fin t).toI64 ∧ (F64.fin t).toI64 ≤ k := by
  have h0 : (1 : Rat) ≤ k := by exact_mod_cast hk
  unfold F64.toI64 F64.truncQ
  simp only
  rw [if_pos (by linarith)]
  have f1 := F64.floor_le' t
  have f2 := F64.lt_floor' t
  have a1 : ((k - 2 : Int) : Rat) < t.floor := by push_cast; linarith
  have a2 : (t.floor : Rat) < ((k + 1 : Int) : Rat) := by push_cast; linarith
  have b1 : k - 2 < t.floor := by exact_mod_cast a1
  have b2 : t.floor < k + 1 := by exact_mod_cast a2
  unfold F64.clamp
  rw [if_neg (by omega), if_neg (by omega)]
  omega

/-- The computed microseconds are the exact ones or one less. -/
theorem julianMicros_near {fs : Bytes} (h : Digits fs) (hl : fs.length ≤ 7) :
    0 ≤ julianMicros fs ∧ fracTen fs * 8640 - 1 ≤ julianMicros fs ∧ julianMicros fs ≤ fracTen fs * 8640 := by
  obtain ⟨b1, b2⟩ := fracTen_bound h hl
  unfold julianMicros
  rw [fracTen_rnd h hl]
  by_cases h0 : fracTen fs = 0
  · rw [h0, show ((F64.rnd (((0 : Int) : Rat) / 10000000)).mul (F64.ofInt 86400000000)).toI64 = 0 by decide +kernel]
    omega
  · obtain ⟨r, hr, he, hr0, hr1⟩ := frac_float (k := fracTen fs) (by omega)
    rw [hr, F64.ofInt_ok (n := 86400000000) (by omega), F64.fin_mul]
    have hb : |r * ((86400000000 : Int) : Rat)| ≤ 86400000000 := by
      rw [abs_of_pos (by positivity)]; push_cast; linarith
    obtain ⟨t, ht, hte⟩ := F64.rnd_within (q := r * ((86400000000 : Int) : Rat)) hb (by norm_num)
    rw [ht]
    rw [abs_le] at he hte
    have hte2 : (86400000000 : Rat) / 2 ^ 53 + 1 / 2 ^ 100 ≤ 1 / 1000 := by norm_num
    have := toI64_floor (t := t) (k := fracTen fs * 8640) (by push_cast at *; linarith) (by push_cast at *; linarith)
      (by omega) (by omega)
    omega

/-- A fraction that is a multiple of 1/128 is exact. -/
theorem julianMicros_exact {fs : Bytes} (h : Digits fs) (hl : fs.length ≤ 7) (hm : value fs * 128 % 10 ^ fs.length = 0) :
    julianMicros fs = fracTen fs * 8640 := by
  obtain ⟨b1, b2⟩ := fracTen_bound h hl
  obtain ⟨m, hm⟩ := Nat.dvd_of_mod_eq_zero hm
  have e : (10 : Int) ^ fs.length * 10 ^ (7 - fs.length) = 10000000 := by
    rw [← pow_add, Nat.add_sub_cancel' hl]; norm_num
  have hm' : fracTen fs * 128 = m * 10000000 := by
    have : (value fs : Int) * 128 = 10 ^ fs.length * m := by exact_mod_cast hm
    unfold fracTen
    linear_combination (10 : Int) ^ (7 - fs.length) * this + m * e
  have hq : (fracTen fs : Rat) * 128 = m * 10000000 := by exact_mod_cast hm'
  have hp : F64.pow2 (-7) = 1 / 128 := by decide +kernel
  have e1 : (fracTen fs : Rat) / 10000000 = ((m : Int) : Rat) * F64.pow2 (-7) := by
    rw [hp]; push_cast; linarith
  unfold julianMicros
  rw [fracTen_rnd h hl, e1, F64.rnd_exact_lt (by
    have : (m : Int) < 128 := by omega
    rw [abs_of_nonneg (by omega)]; omega) (by omega) (by omega), ← e1,
    F64.ofInt_ok (n := 86400000000) (by omega), F64.fin_mul]
  rw [F64.rnd_of_int (fracTen fs * 8640) (by push_cast; ring) (by omega)]
  unfold F64.toI64
  simp only
  rw [F64.truncQ_int]
  unfold F64.clamp
  rw [if_neg (by omega), if_neg (by omega)]

section
variable {p : Profile} {order : DateOrder}

/-- The state after a Julian day number. -/
theorem julian_dateState {n : Nat} (hf : n ≤ 2147483647) (b : Bool) : DateState p (julianDec n) b (julianDay n) := by
  refine ⟨rfl, rfl, rfl, rfl, by simp [julianDec], rfl, rfl, rfl, rfl, ?_⟩
  intro tm m e1 e2 e3 e4 e5
  have m14 : m &&& 14 = 14 := by
    have : (m &&& 32782) &&& 14 = 14 := by rw [e5]; simp [julianDec]
    rwa [Nat.and_assoc] at this
  have mdoy : m &&& 32768 = 0 := by
    have : (m &&& 32782) &&& 32768 = 0 := by rw [e5]; simp [julianDec]
    rwa [Nat.and_assoc] at this
  have e1 : tm.year = (julianYmd n).y := e1
  have e2 : tm.mon = (julianYmd n).m := e2
  have e3 : tm.mday = (julianYmd n).d := e3
  have hr := julianYmd_real n
  unfold julianDay
  rw [if_pos hf]
  refine ⟨hr, ?_⟩
  have j : (julianDec n).isJulian = true := rfl
  rw [j, validateDate_julian tm _ b m14 mdoy, if_pos]
  · rw [← e1, ← e2, ← e3]
  · rw [e1, e2, e3]; exact hr

/-- The state after a Julian day number with a fraction; `t` is the time of day. -/
def julianFracDec (c : Int × Int × Int) (t : Clock) : Dec :=
  { tm := { ({} : PgTime).setYmd c with hour := t.h, min := t.mi, sec := t.s }, fSec := t.us, tMask := 14 ||| 31744, fMask := 14 ||| 31744, isJulian := true, pType := .number, dType := .date }

def julianFracFields (J : JulianFrac) : List Field :=
  [(.string, lower J.day.word), (.number, J.day.digits ++ 46 :: J.frac)]

/-- What is set by the number after the label. -/
theorem julian_assign {str fs : Bytes} {n : Nat} (hn : n ≤ 2147483647) (hd : Digits fs) :
    if fs.length ≤ 7 then
      labelAssign p .julian str n (46 :: fs) { tMask := 0, pType := .julian } =
        (.ok (), { julianFracDec (j2dCore n) (clockOf (julianMicros fs)) with
                   fMask := 0, pType := .julian, dType := ({} : Dec).dType })
    else ∃ s, labelAssign p .julian str n (46 :: fs) { tMask := 0, pType := .julian } = (.err .overflow, s) := by
  have h2 := str2d_frac (r := []) hd (Stops.nil _)
  rw [List.append_nil] at h2
  by_cases hl : fs.length ≤ 7
  · rw [if_pos hl]
    unfold labelAssign labelJulian
    simp only
    rw [St.ite_run, if_neg (by omega), St.mod_bind, julian2date_core p _ (by omega) (by omega), St.lift_ok_bind,
      St.mod_bind, St.ite_run, if_pos (by simp), h2, if_pos hl, St.lift_ok_bind]
    simp only
    obtain ⟨m0, m1, m2⟩ := julianMicros_near hd hl
    obtain ⟨b1, b2⟩ := fracTen_bound hd hl
    have hdt := date2time_eq p (julianMicros fs) m0 (by omega)
    have hju : ((fracF64 fs).mul (F64.ofInt 86400000000)).toI64 = julianMicros fs := by rw [julianMicros]
    rw [hju, hdt, St.lift_ok_bind]
    generalize clockOf (julianMicros fs) = t
    generalize j2dCore n = c
    rfl
  · rw [if_neg hl]
    unfold labelAssign labelJulian
    simp only
    rw [St.ite_run, if_neg (by omega), St.mod_bind, julian2date_core p _ (by omega) (by omega), St.lift_ok_bind,
      St.mod_bind, St.ite_run, if_pos (by simp), h2, if_neg hl]
    exact ⟨_, St.bind_err (St.lift_run _ _)⟩

/-- The number after the label. -/
theorem labelled_julian {J : JulianFrac} (hJ : J.day.Ok) (hd : Digits J.frac) :
    if value J.day.digits ≤ 2147483647 ∧ J.frac.length ≤ 7 then
      labelled p (J.day.digits ++ 46 :: J.frac) { tMask := 0, pType := .julian } =
        (.ok (), { julianFracDec (j2dCore (value J.day.digits)) (clockOf (julianMicros J.frac)) with fMask := 0 })
    else ∃ e s, labelled p (J.day.digits ++ 46 :: J.frac) { tMask := 0, pType := .julian } = (.err e, s) := by
  obtain ⟨-, -, hn⟩ := hJ
  have nd := DigitsOf.ne hn (by omega)
  have hs := str2i32_digits (r := 46 :: J.frac) hn.1 nd (Stops.cons rfl)
  unfold labelled
  rw [St.get_bind, hs]
  by_cases hv : value J.day.digits ≤ 2147483647
  swap
  · rw [if_neg (fun h => hv h.1), if_neg (fun h => hv h.2)]
    exact ⟨_, _, St.bind_err (St.lift_run _ _)⟩
  rw [if_pos (show J.day.digits.length ≤ 10 ∧ value J.day.digits ≤ 2147483647 from ⟨hn.2.2, hv⟩), St.lift_ok_bind]
  simp only [List.head?_cons, ne_eq, not_true_eq_false, and_false, false_and, if_false]
  have ha := julian_assign (p := p) (str := J.day.digits ++ 46 :: J.frac) hv hd
  by_cases hl : J.frac.length ≤ 7
  · rw [if_pos ⟨hv, hl⟩]
    rw [if_pos hl] at ha
    rw [St.bind_ok ha]
    rfl
  · rw [if_neg (fun h => hl h.2)]
    rw [if_neg hl] at ha
    obtain ⟨s, ha⟩ := ha
    exact ⟨_, _, St.bind_err ha⟩

/-- Reading a Julian day number with a fraction. -/
theorem loop_julianFrac {J : JulianFrac} (hJ : J.day.Ok) (hd : Digits J.frac) (ft : List TokenField) (i : Nat)
    (rest : List Field) :
    if value J.day.digits ≤ 2147483647 ∧ J.frac.length ≤ 7 then
      dateTimeLoop p plainLook order ft (julianFracFields J ++ rest) i ({}, ()) =
        dateTimeLoop p plainLook order ft rest (i + 2) (julianFracDec (j2dCore (value J.day.digits)) (clockOf (julianMicros J.frac)), ()) ∧
      timeOnlyLoop p plainLook order ft (julianFracFields J ++ rest) i ({}, ()) =
        timeOnlyLoop p plainLook order ft rest (i + 2) (julianFracDec (j2dCore (value J.day.digits)) (clockOf (julianMicros J.frac)), ())
    else (∃ e s, dateTimeLoop p plainLook order ft (julianFracFields J ++ rest) i ({}, ()) = (.err e, s)) ∧
      ∃ e s, timeOnlyLoop p plainLook order ft (julianFracFields J ++ rest) i ({}, ()) = (.err e, s) := by
  obtain ⟨s, hs, hw⟩ := julian_word hJ
  obtain ⟨⟨e, h1, h2, h3⟩, -⟩ := labelUnit_entry hs hw
  have hw1 := field_units (p := p) (order := order) (ft := ft) (i := i) (d := {}) h1 h2 h3
  have hw2 := fieldT_units (p := p) (order := order) (ft := ft) (i := i) (d := {}) h1 h2 h3
  have hl := labelled_julian (p := p) hJ hd
  by_cases hk : value J.day.digits ≤ 2147483647 ∧ J.frac.length ≤ 7
  · rw [if_pos hk] at hl ⊢
    have c1 := numberToken_label (order := order) (ft := ft) (i := i + 1) (by simp) hl (by simp)
    have c2 := numberTokenT_label (order := order) (ft := ft) (i := i + 1) (by simp) hl (by simp)
    simp only [Nat.zero_or] at c1 c2
    exact ⟨Eq.trans (loop_cons hw1) (loop_cons c1), Eq.trans (loopT_cons hw2) (loopT_cons c2)⟩
  · rw [if_neg hk] at hl ⊢
    obtain ⟨e, s, hl⟩ := hl
    obtain ⟨e1, s1, c1⟩ := numberToken_labelErr (order := order) (ft := ft) (i := i + 1) (by simp) hl
    obtain ⟨e2, s2, c2⟩ := numberTokenT_labelErr (order := order) (ft := ft) (i := i + 1) (by simp) hl
    exact ⟨⟨_, _, Eq.trans (loop_cons hw1) (loop_cons_err c1)⟩, ⟨_, _, Eq.trans (loopT_cons hw2) (loopT_cons_err c2)⟩⟩

end

theorem scans_julianFrac (u : TokenField) {J : JulianFrac} (hJ : J.day.Ok) (hd : Digits J.frac) (nf : J.frac ≠ [])
    {r : Bytes} {l : List Field} (hr : Loose r)
    (h : Scans u r l) : Scans u (J.bytes ++ r) (julianFracFields J ++ l) := by
  obtain ⟨s, hs, hw⟩ := julian_word hJ
  obtain ⟨⟨e, h1, -⟩, h3, h4, -⟩ := labelUnit_entry hs hw
  obtain ⟨-, hg, hn⟩ := hJ
  have nd := DigitsOf.ne hn (by omega)
  have s1 := Scans.numberDot (u := u) hn.1 nd hd nf (Loose.number hr) h
  have s2 := Scans.nameDigit h3 h4 h1 hg hn.1 nd (by simp) s1
  simpa [JulianFrac.bytes, JulianText.bytes, julianFracFields] using s2

/-- Scanning a Julian day number with a fraction and what follows it. -/
theorem scan_julianFrac (u : TokenField) {J : JulianFrac} (hJ : J.day.Ok) (hd : Digits J.frac) (nf : J.frac ≠ [])
    (hl : J.frac.length ≤ 40) {clk : Option (DateSep × ClockText)} (hT : ClkOk clk) (bc : Bool) :
    scan u (J.bytes ++ clkBytes clk ++ bcMark bc) = .ok (julianFracFields J ++ (clkFields clk ++ bcFields bc)) := by
  obtain ⟨n, -⟩ := julian_len hJ
  obtain ⟨s, hs, hw⟩ := julian_word hJ
  have k := labelUnit_entry hs hw
  have := beside_len hJ.2.1
  have := hJ.2.2.2.2
  refine scan_day (D := J.bytes) (F := julianFracFields J) (mer := none) (t := []) u ?_ ?_ (by simp [julianFracFields])
    (fun hr hs => scans_julianFrac u hJ hd nf hr hs) hT rfl bc (by simp)
  · intro h; exact n (List.append_eq_nil_iff.1 h).1
  · simp only [JulianFrac.bytes, JulianText.bytes, List.length_append, List.length_cons]
    omega

end Pg
