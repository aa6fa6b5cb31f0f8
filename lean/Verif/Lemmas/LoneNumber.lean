import Verif.Lemmas.QuantitiesText

/-! # A number without unit in an interval text -/

namespace Pg
open Spec

variable {p : Profile}

theorem rangeUnit_field {f g : SqlField} (h : SqlRange f g) :
    TokenField.ofInt (rangeUnit (rangeMask f g)).value = .ok (unitTf g.unit) := by
  cases f <;> cases g <;> first | (exact absurd h (by decide)) | decide +kernel

/-- The fields after a number without unit. -/
theorem lone_runs {range : Nat} {q : Quantity} (hd : DigitsOf 1 10 q.digits) (hmod : Moderate [q])
    (hu : TokenField.ofInt (rangeUnit range).value = .ok (unitTf q.unit)) :
    ∃ s, IvRuns p range [numField q.sign q.digits] {} s ∧ QAt s [q] false := by
  have hval : value q.digits ≤ 2147483647 := hmod.2.2.2.2 q (by simp)
  have hnum := numberParts_sg (p := p) q.sign hd.1 (DigitsOf.ne hd (by omega)) hd.2.2 hval
  obtain ⟨m1, m2, m3, m4, -⟩ := hmod
  simp only [size_cons] at m1 m2 m3 m4
  have hinv : QInv (({}, 0) : TmF) (total IvUnit.months []) (size IvUnit.months []) (total IvUnit.days [])
      (size IvUnit.days []) (total wholeMinutes []) (size wholeMinutes []) (total subMinute []) (size subMinute []) := by
    constructor <;> simp [total, size, Abs2]
  obtain ⟨t', ha, hinv'⟩ := addUnit_whole p q.unit (v := q.number) (n := value q.digits) hinv (by omega) (by omega)
    (by
      rw [number_sg]; unfold sgVal
      split
      · exact Or.inr rfl
      · exact Or.inl rfl) (by omega) (by omega) (by omega) (by omega)
  obtain ⟨ty, hst⟩ := step_number (p := p) (range := range) (s := {})
    (u := unitTf q.unit) (m := 2 ^ unitExp q.unit) (t := t')
    (numField_kind q.sign hd.1) hnum
    (by
      simp only [Bool.false_eq_true, if_false]
      simp only [if_true]; exact hu) ha
    (by simp)
  refine ⟨_, IvRuns.nil.cons hst, ?_, ?_, rfl, rfl⟩
  · simp only [total_cons, size_cons]
    have comm : ∀ a b : Int, a + b = b + a := Int.add_comm
    rw [comm (q.number * _), comm (q.number * _), comm (q.number * _), comm (q.number * _),
      comm (_ * q.unit.months), comm (_ * q.unit.days), comm (_ * wholeMinutes q.unit), comm (_ * subMinute q.unit)]
    exact hinv'
  · simp only [maskOf]

theorem negPos_nonpos {x : Int} (h : x ≤ 0) : negPos x = x := by
  unfold negPos; rw [if_neg (by omega)]

/-- One number: the SQL rule for a leading minus changes nothing. -/
theorem lone_sql {style : IntervalStyle} {q : Quantity} (hd : DigitsOf 1 10 q.digits) {s : IvS} {b : Bool}
    (hq : QAt s [q] b) (t : TmF) (ht : t = ({ s.t.1 with sec := s.t.1.sec + Int.tdiv s.t.2 1000000 },
      s.t.2 - Int.tdiv s.t.2 1000000 * 1000000)) :
    sqlSign style [numField q.sign q.digits] t = (.ok (), t) := by
  by_cases hs : style = .sqlStandard
  swap
  · exact sqlSign_other hs (by simp) t
  obtain ⟨x, r, ex, hx⟩ := digits_first hd.1 (DigitsOf.ne hd (by omega))
  rw [isDigit_iff] at hx
  rw [sqlSign, if_pos hs, numField_snd]
  by_cases hm : q.sign = some true
  · rw [hm]
    simp only [sgBytes, if_true, List.cons_append]
    rw [if_pos ⟨trivial, by simp⟩]
    show (Res.ok (), forceNegative t) = _
    have hn : q.number = -(value q.digits : Int) := by unfold Quantity.number; rw [if_pos hm]
    obtain ⟨⟨m, m', d, d', w, w', ss, s'⟩, -, -, -⟩ := hq
    simp only [total, size, List.map_cons, List.map_nil, List.sum_cons, List.sum_nil, Int.add_zero, hn, Abs2,
      Int.neg_mul] at m m' d d' w w' ss s'
    have hv : (0 : Int) ≤ value q.digits := by omega
    obtain ⟨n1, n2, n3, n4⟩ := unit_nonneg q.unit
    have p1 := mul_nonneg hv n1
    have p2 := mul_nonneg hv n2
    have p3 := mul_nonneg hv n3
    have p4 := mul_nonneg hv n4
    generalize (value q.digits : Int) * q.unit.months = A at *
    generalize (value q.digits : Int) * q.unit.days = B at *
    generalize (value q.digits : Int) * wholeMinutes q.unit = C at *
    generalize (value q.digits : Int) * subMinute q.unit = D at *
    have qd := tdiv_or s.t.2 1000000
    subst ht
    unfold forceNegative
    simp only
    rw [negPos_nonpos (x := s.t.1.sec + _) (by omega), negPos_nonpos (x := s.t.1.min) (by omega),
      negPos_nonpos (x := s.t.1.hour) (by omega), negPos_nonpos (x := s.t.1.mday) (by omega),
      negPos_nonpos (x := s.t.1.mon) (by omega), negPos_nonpos (x := s.t.1.year) (by omega),
      negPos_nonpos (x := s.t.2 - _) (by omega)]
  · have : ∃ c r', sgBytes q.sign ++ q.digits = c :: r' ∧ c ≠ 45 := by
      rcases hc : q.sign with _ | _ | _
      · exact ⟨x, r, by simp [sgBytes, ex], by omega⟩
      · exact ⟨43, q.digits, by simp [sgBytes], by omega⟩
      · exact absurd hc hm
    obtain ⟨c, r', e, hc⟩ := this
    rw [e]
    simp only
    rw [if_neg (by simp [hc])]
    rfl

/-- Reading a number without unit. -/
theorem interval_lone {style : IntervalStyle} {u : TokenField} {c : Caches} (hc : c.Ok) {typmod : Int} {q : Quantity}
    (hd : DigitsOf 1 10 q.digits) (hmod : Moderate [q])
    (hu : TokenField.ofInt (rangeUnit (parseRange typmod)).value = .ok (unitTf q.unit)) :
    Interval.tryFromStr p u c (sgBytes q.sign ++ q.digits) typmod style =
      Interval.adjustByTypmod p ⟨q.number * q.unit.months, q.number * q.unit.days, q.number * q.unit.micros⟩ typmod := by
  obtain ⟨s, hr, hq⟩ := lone_runs (p := p) hd hmod hu
  have hsc : Scans u (sgBytes q.sign ++ q.digits) [numField q.sign q.digits] := by
    have := Scans.sgNum (u := u) (rest := []) q.sign hd.1 (DigitsOf.ne hd (by omega)) (Or.inl rfl) (Scans.nil u)
    simpa using this
  have hlen : (sgBytes q.sign ++ q.digits).length ≤ 128 := by
    have := hd.2.2
    rcases q.sign with _ | _ | _ <;> simp [sgBytes] <;> omega
  have hscan := Scans.run hsc (by simp) hlen (by simp)
  rw [interval_fields hc hscan (by simp) hmod hr hq (lone_sql hd hq), total_micros]
  simp [total]

end Pg
