import Verif.Lemmas.FormsText
import Verif.Lemmas.IntervalVerbose
import Verif.Spec.Quantities

/-! # Intervals written as quantities -/

namespace Pg
open Spec

variable {p : Profile} {range : Nat}

/-- The unit in the code. -/
def unitTf : IvUnit → TokenField
  | .microsecond => .microsec | .millisecond => .millisec | .second => .second | .minute => .minute
  | .hour => .hour | .day => .day | .week => .week | .month => .month | .year => .year
  | .decade => .decade | .century => .century | .millennium => .millennium

/-- The mask bit of a unit, as an exponent. -/
def unitExp : IvUnit → Nat
  | .microsecond => 14 | .millisecond => 13 | .second => 12 | .minute => 11 | .hour => 10 | .day => 3 | .week => 24
  | .month => 1 | .year => 2 | .decade => 25 | .century => 26 | .millennium => 27

theorem unitExp_inj {a b : IvUnit} (h : unitExp a = unitExp b) : a = b := by
  cases a <;> cases b <;> first | rfl | (exact absurd h (by decide))

/-- `|a|·c + |b| ≤ x` -/
def Abs2 (a c b x : Int) : Prop := a * c + b ≤ x ∧ a * c - b ≤ x ∧ -(a * c) + b ≤ x ∧ -(a * c) - b ≤ x

/-- The fields hold these totals. -/
structure QInv (t : TmF) (M M' D D' W W' S S' : Int) : Prop where
  m : t.1.year * 12 + t.1.mon = M
  m' : Abs2 t.1.year 12 t.1.mon M'
  d : t.1.mday = D
  d' : Abs2 t.1.mday 1 0 D'
  w : t.1.hour * 60 + t.1.min = W
  w' : Abs2 t.1.hour 60 t.1.min W'
  s : t.1.sec * 1000000 + t.2 = S
  s' : Abs2 t.1.sec 1000000 t.2 S'

theorem ofInt_round {v : Int} (h : v.natAbs ≤ 2147483647) :
    (((F64.ofInt v).add (.fin 0)).round).toI64 = v := by
  rw [F64.ofInt_ok (by omega)]
  unfold F64.add
  simp only [add_zero]
  rw [F64.rnd_int (by rw [abs_le]; norm_num; omega)]
  unfold F64.round F64.toI64
  simp only [F64.roundAway_int, F64.truncQ_int]
  unfold F64.clamp
  rw [if_neg (by omega), if_neg (by omega)]

theorem ofInt_round_thousand {v : Int} (h : v.natAbs ≤ 999) :
    ((((F64.ofInt v).add (.fin 0)).mul (.fin 1000)).round).toI64 = v * 1000 := by
  rw [F64.ofInt_ok (by omega)]
  unfold F64.add
  simp only [add_zero]
  rw [F64.rnd_int (by rw [abs_le]; norm_num; omega)]
  unfold F64.mul
  simp only
  rw [show (v : Rat) * 1000 = ((v * 1000 : Int) : Rat) by push_cast; rfl, F64.rnd_int (by rw [abs_le]; norm_num; omega)]
  unfold F64.round F64.toI64
  simp only [F64.roundAway_int, F64.truncQ_int]
  unfold F64.clamp
  rw [if_neg (by omega), if_neg (by omega)]

theorem roundMicros_zero : roundMicros (.fin 0) = 0 := by decide +kernel

/-- What a quantity adds to the fields. -/
def addTo (u : IvUnit) (v : Int) (t : TmF) : TmF :=
  match u with
  | .microsecond => (t.1, t.2 + v)
  | .millisecond => ({ t.1 with sec := t.1.sec + tdiv v 1000 }, t.2 + (v - tdiv v 1000 * 1000) * 1000)
  | .second => ({ t.1 with sec := t.1.sec + v }, t.2 + 0)
  | .minute => ({ t.1 with min := t.1.min + v }, t.2)
  | .hour => ({ t.1 with hour := t.1.hour + v }, t.2)
  | .day => ({ t.1 with mday := t.1.mday + v }, t.2)
  | .month => ({ t.1 with mon := t.1.mon + v }, t.2)
  | .week => ({ t.1 with mday := t.1.mday + v * 7 }, t.2)
  | .year => ({ t.1 with year := t.1.year + v }, t.2)
  | .decade => ({ t.1 with year := t.1.year + v * 10 }, t.2)
  | .century => ({ t.1 with year := t.1.year + v * 100 }, t.2)
  | .millennium => ({ t.1 with year := t.1.year + v * 1000 }, t.2)

/-- What a quantity does to the fields. -/
def addsUnit (p : Profile) (u : IvUnit) : Prop := ∀ {v n : Int} {t : TmF} {M M' D D' W W' S S' : Int},
    QInv t M M' D D' W W' S S' → 0 ≤ n → n ≤ 2147483647 → v = n ∨ v = -n →
    M' + n * u.months ≤ 2147483647 → D' + n * u.days ≤ 2147483647 →
    W' + n * wholeMinutes u ≤ 2147483647 → S' + n * subMinute u ≤ 2147483647000000 →
    addUnit p (unitTf u) v (.fin 0) t = (.ok (2 ^ unitExp u), addTo u v t) ∧
      QInv (addTo u v t) (M + v * u.months) (M' + n * u.months) (D + v * u.days) (D' + n * u.days)
        (W + v * wholeMinutes u) (W' + n * wholeMinutes u) (S + v * subMinute u)
        (S' + n * subMinute u)

theorem addUnit_microsecond (p : Profile) : addsUnit p .microsecond := by
  intro v n t M M' D D' W W' S S' h n0 hn hv hM hD hW hS
  obtain ⟨m, m', d, d', w, w', s, s'⟩ := h
  obtain ⟨tm, f⟩ := t
  simp only [IvUnit.months, IvUnit.days, wholeMinutes, subMinute, Int.mul_zero, Int.mul_one, Int.add_zero, Abs2]
    at hM hD hW hS m m' d d' w w' s s'
  refine ⟨?_, ?_⟩
  · simp only [unitTf, addTo, addUnit, addFsec, ofInt_round (show v.natAbs ≤ 2147483647 by omega), if_true, St.bind_run, St.get_run, St.lift_run, St.mod_run, St.pure_run,
      chk64_ok (show In64 (f + v) by unfold In64; omega)]
    rfl
  · constructor <;> simp only [addTo, IvUnit.months, IvUnit.days, wholeMinutes, subMinute, Int.mul_zero, Int.mul_one,
      Int.add_zero, Abs2] <;> omega

theorem addUnit_millisecond (p : Profile) : addsUnit p .millisecond := by
  intro v n t M M' D D' W W' S S' h n0 hn hv hM hD hW hS
  obtain ⟨m, m', d, d', w, w', s, s'⟩ := h
  obtain ⟨tm, f⟩ := t
  simp only [IvUnit.months, IvUnit.days, wholeMinutes, subMinute, Int.mul_zero, Int.mul_one, Int.add_zero, Abs2]
    at hM hD hW hS m m' d d' w w' s s'
  have q := tdiv_or v 1000
  have q1 : (v - tdiv v 1000 * 1000).natAbs ≤ 999 := by omega
  refine ⟨?_, ?_⟩
  · simp only [unitTf, addTo, addUnit, addSec, addFsec, ofInt_round_thousand q1, if_true, St.bind_run, St.get_run, St.lift_run, St.mod_run, St.pure_run,
      chk32_ok (show In32 (tm.sec + tdiv v 1000) by unfold In32; omega),
      chk64_ok (show In64 (f + (v - tdiv v 1000 * 1000) * 1000) by unfold In64; omega)]
    rfl
  · constructor <;> simp only [addTo, IvUnit.months, IvUnit.days, wholeMinutes, subMinute, Int.mul_zero, Int.mul_one,
      Int.add_zero, Abs2] <;> omega

theorem addUnit_second (p : Profile) : addsUnit p .second := by
  intro v n t M M' D D' W W' S S' h n0 hn hv hM hD hW hS
  obtain ⟨m, m', d, d', w, w', s, s'⟩ := h
  obtain ⟨tm, f⟩ := t
  simp only [IvUnit.months, IvUnit.days, wholeMinutes, subMinute, Int.mul_zero, Int.mul_one, Int.add_zero, Abs2]
    at hM hD hW hS m m' d d' w w' s s'
  refine ⟨?_, ?_⟩
  · simp only [unitTf, addTo, addUnit, addSec, addFsec, roundMicros_zero, if_true, St.bind_run, St.get_run, St.lift_run, St.mod_run, St.pure_run,
      chk32_ok (show In32 (tm.sec + v) by unfold In32; omega),
      chk64_ok (show In64 (f + 0) by unfold In64; omega)]
    rfl
  · constructor <;> simp only [addTo, IvUnit.months, IvUnit.days, wholeMinutes, subMinute, Int.mul_zero, Int.mul_one,
      Int.add_zero, Abs2] <;> omega

theorem addUnit_minute (p : Profile) : addsUnit p .minute := by
  intro v n t M M' D D' W W' S S' h n0 hn hv hM hD hW hS
  obtain ⟨m, m', d, d', w, w', s, s'⟩ := h
  obtain ⟨tm, f⟩ := t
  simp only [IvUnit.months, IvUnit.days, wholeMinutes, subMinute, Int.mul_zero, Int.mul_one, Int.add_zero, Abs2]
    at hM hD hW hS m m' d d' w w' s s'
  refine ⟨?_, ?_⟩
  · simp only [unitTf, addTo, addUnit, addMin, adjustFractSeconds, if_true, St.bind_run, St.get_run, St.lift_run, St.mod_run, St.pure_run,
      chk32_ok (show In32 (tm.min + v) by unfold In32; omega)]
    rfl
  · constructor <;> simp only [addTo, IvUnit.months, IvUnit.days, wholeMinutes, subMinute, Int.mul_zero, Int.mul_one,
      Int.add_zero, Abs2] <;> omega

theorem addUnit_hour (p : Profile) : addsUnit p .hour := by
  intro v n t M M' D D' W W' S S' h n0 hn hv hM hD hW hS
  obtain ⟨m, m', d, d', w, w', s, s'⟩ := h
  obtain ⟨tm, f⟩ := t
  simp only [IvUnit.months, IvUnit.days, wholeMinutes, subMinute, Int.mul_zero, Int.mul_one, Int.add_zero, Abs2]
    at hM hD hW hS m m' d d' w w' s s'
  refine ⟨?_, ?_⟩
  · simp only [unitTf, addTo, addUnit, addHour, adjustFractSeconds, if_true, St.bind_run, St.get_run, St.lift_run, St.mod_run, St.pure_run,
      chk32_ok (show In32 (tm.hour + v) by unfold In32; omega)]
    rfl
  · constructor <;> simp only [addTo, IvUnit.months, IvUnit.days, wholeMinutes, subMinute, Int.mul_zero, Int.mul_one,
      Int.add_zero, Abs2] <;> omega

theorem addUnit_day (p : Profile) : addsUnit p .day := by
  intro v n t M M' D D' W W' S S' h n0 hn hv hM hD hW hS
  obtain ⟨m, m', d, d', w, w', s, s'⟩ := h
  obtain ⟨tm, f⟩ := t
  simp only [IvUnit.months, IvUnit.days, wholeMinutes, subMinute, Int.mul_zero, Int.mul_one, Int.add_zero, Abs2]
    at hM hD hW hS m m' d d' w w' s s'
  refine ⟨?_, ?_⟩
  · simp only [unitTf, addTo, addUnit, addMday, adjustFractSeconds, if_true, St.bind_run, St.get_run, St.lift_run, St.mod_run, St.pure_run,
      chk32_ok (show In32 (tm.mday + v) by unfold In32; omega)]
    rfl
  · constructor <;> simp only [addTo, IvUnit.months, IvUnit.days, wholeMinutes, subMinute, Int.mul_zero, Int.mul_one,
      Int.add_zero, Abs2] <;> omega

theorem addUnit_month (p : Profile) : addsUnit p .month := by
  intro v n t M M' D D' W W' S S' h n0 hn hv hM hD hW hS
  obtain ⟨m, m', d, d', w, w', s, s'⟩ := h
  obtain ⟨tm, f⟩ := t
  simp only [IvUnit.months, IvUnit.days, wholeMinutes, subMinute, Int.mul_zero, Int.mul_one, Int.add_zero, Abs2]
    at hM hD hW hS m m' d d' w w' s s'
  refine ⟨?_, ?_⟩
  · simp only [unitTf, addTo, addUnit, addMon, adjustFractDays, if_true, St.bind_run, St.get_run, St.lift_run, St.mod_run, St.pure_run,
      chk32_ok (show In32 (tm.mon + v) by unfold In32; omega)]
    rfl
  · constructor <;> simp only [addTo, IvUnit.months, IvUnit.days, wholeMinutes, subMinute, Int.mul_zero, Int.mul_one,
      Int.add_zero, Abs2] <;> omega

theorem addUnit_week (p : Profile) : addsUnit p .week := by
  intro v n t M M' D D' W W' S S' h n0 hn hv hM hD hW hS
  obtain ⟨m, m', d, d', w, w', s, s'⟩ := h
  obtain ⟨tm, f⟩ := t
  simp only [IvUnit.months, IvUnit.days, wholeMinutes, subMinute, Int.mul_zero, Int.mul_one, Int.add_zero, Abs2]
    at hM hD hW hS m m' d d' w w' s s'
  refine ⟨?_, ?_⟩
  · simp only [unitTf, addTo, addUnit, addMday, adjustFractDays, if_true, St.bind_run, St.get_run, St.lift_run, St.mod_run, St.pure_run,
      chk32_ok (show In32 (v * 7) by unfold In32; omega),
      chk32_ok (show In32 (tm.mday + v * 7) by unfold In32; omega)]
    rfl
  · constructor <;> simp only [addTo, IvUnit.months, IvUnit.days, wholeMinutes, subMinute, Int.mul_zero, Int.mul_one,
      Int.add_zero, Abs2] <;> omega

theorem addUnit_year (p : Profile) : addsUnit p .year := by
  intro v n t M M' D D' W W' S S' h n0 hn hv hM hD hW hS
  obtain ⟨m, m', d, d', w, w', s, s'⟩ := h
  obtain ⟨tm, f⟩ := t
  simp only [IvUnit.months, IvUnit.days, wholeMinutes, subMinute, Int.mul_zero, Int.mul_one, Int.add_zero, Abs2]
    at hM hD hW hS m m' d d' w w' s s'
  refine ⟨?_, ?_⟩
  · simp only [unitTf, addTo, addUnit, addYears, addYear, scaleYears, if_true, St.bind_run, St.get_run, St.lift_run, St.mod_run, St.pure_run,
      chk32_ok (show In32 (tm.year + v) by unfold In32; omega)]
    rfl
  · constructor <;> simp only [addTo, IvUnit.months, IvUnit.days, wholeMinutes, subMinute, Int.mul_zero, Int.mul_one,
      Int.add_zero, Abs2] <;> omega

theorem addUnit_decade (p : Profile) : addsUnit p .decade := by
  intro v n t M M' D D' W W' S S' h n0 hn hv hM hD hW hS
  obtain ⟨m, m', d, d', w, w', s, s'⟩ := h
  obtain ⟨tm, f⟩ := t
  simp only [IvUnit.months, IvUnit.days, wholeMinutes, subMinute, Int.mul_zero, Int.mul_one, Int.add_zero, Abs2]
    at hM hD hW hS m m' d d' w w' s s'
  refine ⟨?_, ?_⟩
  · simp only [unitTf, addTo, addUnit, addYears, addYear, scaleYears, if_neg (show ¬ (10 : Int) = 1 by decide), if_true, St.bind_run, St.get_run, St.lift_run, St.mod_run, St.pure_run,
      chk32_ok (show In32 (v * 10) by unfold In32; omega),
      chk32_ok (show In32 (tm.year + v * 10) by unfold In32; omega)]
    rfl
  · constructor <;> simp only [addTo, IvUnit.months, IvUnit.days, wholeMinutes, subMinute, Int.mul_zero, Int.mul_one,
      Int.add_zero, Abs2] <;> omega

theorem addUnit_century (p : Profile) : addsUnit p .century := by
  intro v n t M M' D D' W W' S S' h n0 hn hv hM hD hW hS
  obtain ⟨m, m', d, d', w, w', s, s'⟩ := h
  obtain ⟨tm, f⟩ := t
  simp only [IvUnit.months, IvUnit.days, wholeMinutes, subMinute, Int.mul_zero, Int.mul_one, Int.add_zero, Abs2]
    at hM hD hW hS m m' d d' w w' s s'
  refine ⟨?_, ?_⟩
  · simp only [unitTf, addTo, addUnit, addYears, addYear, scaleYears, if_neg (show ¬ (100 : Int) = 1 by decide), if_true, St.bind_run, St.get_run, St.lift_run, St.mod_run, St.pure_run,
      chk32_ok (show In32 (v * 100) by unfold In32; omega),
      chk32_ok (show In32 (tm.year + v * 100) by unfold In32; omega)]
    rfl
  · constructor <;> simp only [addTo, IvUnit.months, IvUnit.days, wholeMinutes, subMinute, Int.mul_zero, Int.mul_one,
      Int.add_zero, Abs2] <;> omega

theorem addUnit_millennium (p : Profile) : addsUnit p .millennium := by
  intro v n t M M' D D' W W' S S' h n0 hn hv hM hD hW hS
  obtain ⟨m, m', d, d', w, w', s, s'⟩ := h
  obtain ⟨tm, f⟩ := t
  simp only [IvUnit.months, IvUnit.days, wholeMinutes, subMinute, Int.mul_zero, Int.mul_one, Int.add_zero, Abs2]
    at hM hD hW hS m m' d d' w w' s s'
  refine ⟨?_, ?_⟩
  · simp only [unitTf, addTo, addUnit, addYears, addYear, scaleYears, if_neg (show ¬ (1000 : Int) = 1 by decide), if_true, St.bind_run, St.get_run, St.lift_run, St.mod_run, St.pure_run,
      chk32_ok (show In32 (v * 1000) by unfold In32; omega),
      chk32_ok (show In32 (tm.year + v * 1000) by unfold In32; omega)]
    rfl
  · constructor <;> simp only [addTo, IvUnit.months, IvUnit.days, wholeMinutes, subMinute, Int.mul_zero, Int.mul_one,
      Int.add_zero, Abs2] <;> omega

theorem addUnit_exact (p : Profile) (u : IvUnit) : addsUnit p u := by
  cases u
  · exact addUnit_microsecond p
  · exact addUnit_millisecond p
  · exact addUnit_second p
  · exact addUnit_minute p
  · exact addUnit_hour p
  · exact addUnit_day p
  · exact addUnit_week p
  · exact addUnit_month p
  · exact addUnit_year p
  · exact addUnit_decade p
  · exact addUnit_century p
  · exact addUnit_millennium p

theorem addUnit_whole (p : Profile) (u : IvUnit) {v n : Int} {t : TmF} {M M' D D' W W' S S' : Int}
    (h : QInv t M M' D D' W W' S S') (h0 : 0 ≤ n) (h1 : n ≤ 2147483647) (hv : v = n ∨ v = -n)
    (hM : M' + n * u.months ≤ 2147483647) (hD : D' + n * u.days ≤ 2147483647)
    (hW : W' + n * wholeMinutes u ≤ 2147483647) (hS : S' + n * subMinute u ≤ 2147483647000000) :
    ∃ t', addUnit p (unitTf u) v (.fin 0) t = (.ok (2 ^ unitExp u), t') ∧
      QInv t' (M + v * u.months) (M' + n * u.months) (D + v * u.days) (D' + n * u.days)
        (W + v * wholeMinutes u) (W' + n * wholeMinutes u) (S + v * subMinute u)
        (S' + n * subMinute u) := ⟨_, addUnit_exact p u h h0 h1 hv hM hD hW hS⟩

/-- The entry of a unit word in the table. -/
theorem unit_entry (u : IvUnit) : ∀ s ∈ u.spellings, ∃ e, lookupIn deltaTable (letters s) = some e ∧ e.ty = .units ∧
    e.value ≠ 8 ∧ TokenField.ofInt e.value = .ok (unitTf u) := by
  have key : ∀ s ∈ u.spellings, ((lookupIn deltaTable (letters s)).any fun e =>
      e.ty = .units && e.value ≠ 8 && TokenField.ofInt e.value = .ok (unitTf u)) = true := by
    cases u <;> decide +kernel
  intro s hs
  have := key s hs
  cases h : lookupIn deltaTable (letters s) with
  | none => rw [h] at this; simp at this
  | some e =>
    rw [h] at this
    simp at this
    exact ⟨e, rfl, this.1.1, this.1.2, this.2⟩

theorem unit_small (u : IvUnit) : ∀ s ∈ u.spellings, (letters s).map smallLetter = letters s ∧
    (∀ b ∈ letters s, isAlpha b = true) ∧ letters s ≠ [] := by
  cases u <;> decide +kernel

end Pg
