import Verif.Lemmas.IntervalRead
import Verif.Lemmas.FormatInterval
import Verif.Lemmas.FormatTypes

/-! # The parts of an interval text -/

namespace Pg
open Spec

variable {p : Profile} {range : Nat}

/-- An optional sign. -/
def sgBytes : Option Bool → Bytes
  | none => []
  | some neg => [if neg then 45 else 43]

/-- A number with an optional sign. -/
def sgVal (sg : Option Bool) (n : Int) : Int := if sg = some true then -n else n

theorem sgVal_in (sg : Option Bool) {n : Nat} (h : n ≤ 2147483647) : In32 (0 + sgVal sg n) := by
  by_cases hc : sg = some true
  · simp only [sgVal, if_pos hc, In32]; omega
  · simp only [sgVal, if_neg hc, In32]; omega

/-- The field of a number with an optional sign. -/
def numField (sg : Option Bool) (ds : Bytes) : Field :=
  match sg with
  | none => (.number, ds)
  | some neg => (.tz, (if neg then 45 else 43) :: ds)

theorem numField_snd (sg : Option Bool) (ds : Bytes) : (numField sg ds).2 = sgBytes sg ++ ds := by
  cases sg <;> rfl

/-- The end of the text or a space. -/
def Gap (r : Bytes) : Prop := r = [] ∨ ∃ r', r = 32 :: r'

theorem Gap.stops {q : Nat → Bool} (hq : q 32 = false) {r : Bytes} (h : Gap r) : Stops q r := by
  rcases h with rfl | ⟨r', rfl⟩
  · exact Stops.nil _
  · exact Stops.cons hq

theorem digits_signed {ds : Bytes} (h : Digits ds) : ∀ b ∈ ds, isSignedB b = true := by
  intro b hb
  unfold isSignedB
  rw [digits_isDigit h b hb]; rfl

theorem digits_first {ds : Bytes} (h : Digits ds) (n : ds ≠ []) : ∃ x t, ds = x :: t ∧ isDigit x = true := by
  obtain ⟨x, t, e, hx, -⟩ := digit_head (r := []) h n
  exact ⟨x, t, by simpa using e, hx⟩

theorem Scans.sgNum {u : TokenField} {rest ds : Bytes} {l : List Field} (sg : Option Bool) (hd : Digits ds)
    (nd : ds ≠ []) (hr : Gap rest) (h : Scans u rest l) :
    Scans u (sgBytes sg ++ (ds ++ rest)) (numField sg ds :: l) := by
  cases sg with
  | none => exact Scans.number hd nd (hr.stops rfl) h
  | some neg =>
    exact Scans.signed (by cases neg <;> simp) (digits_first hd nd) (digits_signed hd) (hr.stops rfl) h

theorem digits_noColon {ds : Bytes} (h : Digits ds) : NoColon ds := by
  unfold NoColon
  rw [List.any_eq_false]
  intro x hx
  have := digits_isDigit h x hx
  rw [isDigit_iff] at this
  simp; omega

theorem numField_kind (sg : Option Bool) {ds : Bytes} (h : Digits ds) :
    (numField sg ds).1 = .number ∨ (numField sg ds).1 = .date ∨
      (numField sg ds).1 = .tz ∧ NoColon (numField sg ds).2 := by
  cases sg with
  | none => exact Or.inl rfl
  | some neg =>
    refine Or.inr (Or.inr ⟨rfl, ?_⟩)
    have := digits_noColon h
    unfold NoColon at this ⊢
    simp only [numField, List.any_cons, this]
    cases neg <;> rfl

theorem numberParts_sg (sg : Option Bool) {ds : Bytes} (h : Digits ds) (n : ds ≠ []) (hl : ds.length ≤ 10)
    (hv : value ds ≤ 2147483647) :
    numberParts p (numField sg ds).2 = .ok (sgVal sg (value ds), .fin 0, false) := by
  unfold numberParts
  cases sg with
  | none =>
    simp only [numField]
    rw [str2i32_all h n, if_pos ⟨hl, hv⟩]
    rfl
  | some neg =>
    simp only [numField]
    have := str2i32_signed (r := []) neg h (Stops.nil _) hl (Or.inl hv)
    rw [List.append_nil] at this
    rw [this]
    cases neg <;> rfl

/-- The field a unit counts. -/
def getU (u : TokenField) (tm : PgTime) : Int :=
  match u with
  | .year => tm.year
  | .month => tm.mon
  | .day => tm.mday
  | .hour => tm.hour
  | _ => tm.min

/-- Add to the field a unit counts. -/
def bump (u : TokenField) (v : Int) (tm : PgTime) : PgTime :=
  match u with
  | .year => { tm with year := tm.year + v }
  | .month => { tm with mon := tm.mon + v }
  | .day => { tm with mday := tm.mday + v }
  | .hour => { tm with hour := tm.hour + v }
  | _ => { tm with min := tm.min + v }

/-- The mask bit of a unit. -/
def bitU (u : TokenField) : Nat :=
  match u with
  | .year => DTK_YEAR_M
  | .month => DTK_MONTH_M
  | .day => DTK_DAY_M
  | .hour => HOUR_M
  | _ => MINUTE_M

/-- A plain unit. -/
def PlainU (u : TokenField) : Prop := u = .year ∨ u = .month ∨ u = .day ∨ u = .hour ∨ u = .minute

theorem bump_zero (u : TokenField) (tm : PgTime) : bump u 0 tm = tm := by
  unfold bump; split <;> simp only [Int.add_zero]

theorem addUnit_plain {u : TokenField} (hu : PlainU u) {v : Int} {t : TmF} (h : In32 (getU u t.1 + v)) :
    addUnit p u v (.fin 0) t = (.ok (bitU u), (bump u v t.1, t.2)) := by
  obtain ⟨tm, f⟩ := t
  rcases hu with rfl | rfl | rfl | rfl | rfl
  all_goals
    simp only [getU] at h
    simp only [addUnit, addYears, addYear, addMon, addMday, addHour, addMin, scaleYears, adjustFractSeconds,
      adjustFractDays, if_true, St.bind_run, St.get_run, St.lift_run, chk32_ok h, St.mod_run, St.pure_run,
      bump, bitU]

/-- `year` or `years` as the number asks for it. -/
def plural (w : Bytes) (one : Bool) : Bytes := w ++ if one then [] else [115]

/-- The unit words used in printed intervals. -/
def unitWord (u : TokenField) : Bytes :=
  match u with
  | .year => [121, 101, 97, 114]
  | .month => [109, 111, 110]
  | .day => [100, 97, 121]
  | .hour => [104, 111, 117, 114]
  | .minute => [109, 105, 110]
  | _ => [115, 101, 99]

theorem unit_found {u : TokenField} (hu : PlainU u ∨ u = .second) (one : Bool) :
    ∃ e, searchDelta (plural (unitWord u) one) = .ok (some e) ∧ e.ty = .units ∧ e.value ≠ 8 ∧
      TokenField.ofInt e.value = .ok u := by
  rcases hu with (rfl | rfl | rfl | rfl | rfl) | rfl <;> cases one
  all_goals first
    | exact ⟨⟨b!"year", .units, 25⟩, by decide +kernel, rfl, by decide, by decide +kernel⟩
    | exact ⟨⟨b!"years", .units, 25⟩, by decide +kernel, rfl, by decide, by decide +kernel⟩
    | exact ⟨⟨b!"mon", .units, 23⟩, by decide +kernel, rfl, by decide, by decide +kernel⟩
    | exact ⟨⟨b!"mons", .units, 23⟩, by decide +kernel, rfl, by decide, by decide +kernel⟩
    | exact ⟨⟨b!"day", .units, 21⟩, by decide +kernel, rfl, by decide, by decide +kernel⟩
    | exact ⟨⟨b!"days", .units, 21⟩, by decide +kernel, rfl, by decide, by decide +kernel⟩
    | exact ⟨⟨b!"hour", .units, 20⟩, by decide +kernel, rfl, by decide, by decide +kernel⟩
    | exact ⟨⟨b!"hours", .units, 20⟩, by decide +kernel, rfl, by decide, by decide +kernel⟩
    | exact ⟨⟨b!"min", .units, 19⟩, by decide +kernel, rfl, by decide, by decide +kernel⟩
    | exact ⟨⟨b!"mins", .units, 19⟩, by decide +kernel, rfl, by decide, by decide +kernel⟩
    | exact ⟨⟨b!"sec", .units, 18⟩, by decide +kernel, rfl, by decide, by decide +kernel⟩
    | exact ⟨⟨b!"secs", .units, 18⟩, by decide +kernel, rfl, by decide, by decide +kernel⟩

theorem unit_letters {u : TokenField} (hu : PlainU u ∨ u = .second) (one : Bool) :
    Letters (plural (unitWord u) one) ∧ plural (unitWord u) one ≠ [] ∧
      lower (plural (unitWord u) one) = plural (unitWord u) one := by
  rcases hu with (rfl | rfl | rfl | rfl | rfl) | rfl <;> cases one <;> unfold Letters <;> decide

/-- What is known of the state of the decoder. -/
def IvAt (s : IvS) (t : TmF) (m : Nat) (b : Bool) : Prop :=
  s.t = t ∧ s.fMask = m ∧ s.before = b ∧ s.dType = .delta

/-- The fields of a number with its unit; none for 0. -/
def pieceFields (u : TokenField) (sg : Option Bool) (v : Int) : List Field :=
  if v = 0 then []
  else [numField sg (natText v.natAbs), (.string, plural (unitWord u) (decide (v = 1)))]

/-- Decoding a number with its unit. -/
theorem piece_runs {u : TokenField} (hu : PlainU u) {sg : Option Bool} {v : Int} {l : List Field} {s0 s : IvS}
    {t : TmF} {m : Nat} {b : Bool} (hr : IvRuns p range l s0 s) (hs : IvAt s t m b)
    (hv : v.natAbs ≤ 2147483647) (hg : getU u t.1 = 0) (hm : bitU u &&& m = 0) :
    ∃ s', IvRuns p range (pieceFields u sg v ++ l) s0 s' ∧
      IvAt s' (bump u (sgVal sg v.natAbs) t.1, t.2) (if v = 0 then m else m ||| bitU u) b := by
  obtain ⟨e1, e2, e3, e4⟩ := hs
  unfold pieceFields
  by_cases h0 : v = 0
  · subst h0
    simp only [if_true, List.nil_append]
    refine ⟨s, hr, ?_, e2, e3, e4⟩
    have : sgVal sg ((0 : Int).natAbs : Int) = 0 := by unfold sgVal; split <;> rfl
    rw [this, bump_zero]; exact e1
  · rw [if_neg h0, if_neg h0]
    obtain ⟨e, he, ht, hne, hof⟩ := unit_found (Or.inl hu) (decide (v = 1))
    have hw := hr.cons (step_unit (p := p) (range := range) (s := s) he ht)
    have hnum := numberParts_sg (p := p) sg (natText_digits v.natAbs) (natText_ne _) (natText_len10 (by omega))
      (by rw [natText_value]; omega)
    rw [natText_value] at hnum
    have hin : In32 (getU u t.1 + sgVal sg v.natAbs) := by
      rw [hg]; exact sgVal_in sg hv
    obtain ⟨ty, hst⟩ := step_number (p := p) (range := range) (s := { s with tMask := 0, ty := e.value })
      (u := u) (m := bitU u) (t := (bump u (sgVal sg v.natAbs) t.1, t.2))
      (numField_kind sg (natText_digits v.natAbs)) hnum
      (by
        simp only [Bool.false_eq_true, if_false]
        rw [if_neg hne]; exact hof)
      (by simp only; rw [e1]; exact addUnit_plain hu hin)
      (by simp only; rw [e2]; exact hm)
    exact ⟨_, hw.cons hst, rfl, by simp only [e2], e3, e4⟩

/-- The text of a number with its unit. -/
theorem piece_scans {u : TokenField} (hu : PlainU u) {k : TokenField} {sg : Option Bool} {v : Int}
    {rest : Bytes} {l : List Field} (hr : Gap rest) (h : Scans k rest l) :
    Scans k (if v = 0 then rest else sgBytes sg ++ (natText v.natAbs ++ (32 ::
      (plural (unitWord u) (decide (v = 1)) ++ rest)))) (pieceFields u sg v ++ l) := by
  unfold pieceFields
  by_cases h0 : v = 0
  · rw [if_pos h0, if_pos h0]; exact h
  · rw [if_neg h0, if_neg h0]
    obtain ⟨w1, w2, w3⟩ := unit_letters (Or.inl hu) (decide (v = 1))
    have hw := Scans.wordSpace w1 w2 hr h
    rw [w3] at hw
    exact Scans.sgNum sg (natText_digits _) (natText_ne _) (Or.inr ⟨_, rfl⟩) hw.space

/-- The fraction of a second needs no carry. -/
theorem carryFsec_ok {t : TmF} (h : -1000000 < t.2 ∧ t.2 < 1000000) (hs : In32 t.1.sec) :
    carryFsec p t = (.ok (), t) := by
  unfold carryFsec
  rw [St.get_bind]
  by_cases h0 : t.2 = 0
  · rw [if_neg (by simpa using h0)]; rfl
  · rw [if_pos h0]
    have hz : Int.tdiv t.2 1000000 = 0 := by
      have := tdiv_or t.2 1000000; omega
    rw [hz, St.mod_bind]
    unfold addSec
    rw [St.get_bind]
    have hw : wrap32 0 = 0 := by decide
    rw [hw, Int.add_zero, chk32_ok hs, St.lift_ok_bind]
    simp only [St.mod_run, Int.zero_mul, Int.sub_zero]

/-- The end of `decode_interval`. -/
theorem decode_finish {style : IntervalStyle} {l : List Field} {s : IvS} {t t' t'' : TmF} {m : Nat} {b : Bool}
    (hr : IvRuns p range l {} s) (hs : IvAt s t m b) (hm : m ≠ 0) (hf : -1000000 < t.2 ∧ t.2 < 1000000)
    (hsec : In32 t.1.sec) (hsql : sqlSign style l t = (.ok (), t'))
    (hb : if b then negateAll p t' = (.ok (), t'') else t'' = t') :
    ∃ s', decodeInterval p plainLook range style l ({}, ()) = (.ok (), (s', ())) ∧ s'.t = t'' ∧
      s'.dType = .delta := by
  obtain ⟨e1, e2, e3, e4⟩ := hs
  refine ⟨{ s with t := t'' }, ?_, rfl, e4⟩
  unfold decodeInterval
  rw [St.bind_ok (hr 0)]
  refine noLook_run ?_
  rw [St.get_bind, if_neg (by rw [e2]; exact hm)]
  refine Eq.trans (St.bind_ok (a := ()) (onTm_run (r := .ok ()) (t := t) ?_)) ?_
  · rw [e1]; exact carryFsec_ok hf hsec
  refine Eq.trans (St.bind_ok (a := ()) (onTm_run (r := .ok ()) (t := t') ?_)) ?_
  · exact hsql
  rw [St.get_bind]
  simp only [e3]
  cases b with
  | false =>
    simp only [Bool.false_eq_true, if_false] at hb ⊢
    rw [hb]; rfl
  | true =>
    simp only [if_true] at hb ⊢
    exact onTm_run hb

theorem sqlSign_other {style : IntervalStyle} (h : style ≠ .sqlStandard) {l : List Field} (hl : l ≠ []) (t : TmF) :
    sqlSign style l t = (.ok (), t) := by
  cases l with
  | nil => exact absurd rfl hl
  | cons f fs => simp only [sqlSign, if_neg h]; rfl

theorem negateAll_ok {t : TmF} (hf : -1000000 < t.2 ∧ t.2 < 1000000) (h1 : In32 (-t.1.sec)) (h2 : In32 (-t.1.min))
    (h3 : In32 (-t.1.hour)) (h4 : In32 (-t.1.mday)) (h5 : In32 (-t.1.mon)) (h6 : In32 (-t.1.year)) :
    negateAll p t = (.ok (), ({ t.1 with sec := -t.1.sec, min := -t.1.min, hour := -t.1.hour,
                                         mday := -t.1.mday, mon := -t.1.mon, year := -t.1.year }, -t.2)) := by
  unfold negateAll
  rw [St.get_bind, chk64_ok (by omega), St.lift_ok_bind, chk32_ok h1, St.lift_ok_bind, chk32_ok h2, St.lift_ok_bind,
    chk32_ok h3, St.lift_ok_bind, chk32_ok h4, St.lift_ok_bind, chk32_ok h5, St.lift_ok_bind, chk32_ok h6,
    St.lift_ok_bind]
  rfl

/-- The interval of decoded fields. -/
theorem interval_of {style : IntervalStyle} {u : TokenField} {c : Caches} (hc : c.Ok) {x : Bytes} {l : List Field}
    (hs : scan u x = .ok l) {s' : IvS} {tm : PgTime} {f : Int} {a : Interval}
    (hd : decodeInterval p plainLook (parseRange (-1)) style l ({}, ()) = (.ok (), (s', ())))
    (ht : s'.t = (tm, f)) (hty : s'.dType = .delta) (hm : tm.year * 12 + tm.mon = a.month) (h32 : In32 a.month)
    (hday : tm.mday = a.day) (hh : In32 (tm.hour * 60)) (hmin : In32 (tm.hour * 60 + tm.min))
    (hsec : -60 < tm.sec ∧ tm.sec < 60) (hf : -1000000 < f ∧ f < 1000000)
    (htime : ((tm.hour * 60 + tm.min) * 60 + tm.sec) * 1000000 + f = a.time) :
    Interval.tryFromStr p u c x (-1) style = .ok a := by
  rw [interval_run p u hc (-1) style hs (r := .ok ()) (d := s') (w := ()) (by
    unfold St.orElse; rw [hd]), Res.bind_ok, Interval.ofDec, if_pos hty, ht]
  simp only
  have e : Interval.fromPgtime p tm f = .ok a := by
    unfold Interval.fromPgtime
    unfold In32 at h32 hh hmin
    simp only
    rw [if_neg (by omega), chk32_ok hh, Res.bind_ok, chk32_ok hmin, Res.bind_ok, chk64_ok (by omega), Res.bind_ok,
      chk64_ok (by omega), Res.bind_ok, chk64_ok (by omega), Res.bind_ok, chk64_ok (by omega), Res.bind_ok,
      hm, hday, htime]
    rfl
  rw [e, Res.bind_ok, Interval.adjustByTypmod, if_neg (by omega)]

end Pg
