import Verif.Lemmas.FractionsText
import Verif.Lemmas.IntervalSql
import Verif.Spec.Parts

/-! # Decoding intervals written with years-months, days and clock times -/

namespace Pg
open Spec

variable {p : Profile} {range : Nat}

/-- The decoder refuses the field. -/
def FieldErr (p : Profile) (range : Nat) (f : Field) (s : IvS) : Prop :=
  ∀ i, ∃ e s', intervalField p plainLook range i f (s, ()) = (.err e, s')

theorem IvRuns.fails {f : Field} {l : List Field} {s0 s : IvS} (h : IvRuns p range l s0 s) (hf : FieldErr p range f s) :
    IvFails p range (f :: l) s0 := by
  intro i
  obtain ⟨e, s', hs⟩ := hf i
  refine ⟨e, s', ?_⟩
  rw [intervalLoop, St.bind_ok (h (i + 1))]
  exact hs

theorem addMaskI_err {s : IvS} (h : s.tMask &&& s.fMask ≠ 0) : addMaskI s = (.err .invalid, s) := by
  unfold addMaskI
  rw [St.get_bind, St.ite_run, if_pos h]
  rfl

/-- The bits of units. -/
def unitMask : List IvUnit → Nat
  | [] => 0
  | u :: us => unitMask us ||| 2 ^ unitExp u

theorem unitMask_bit (i : Nat) (us : List IvUnit) : (unitMask us).testBit i = true ↔ ∃ u ∈ us, unitExp u = i := by
  induction us with
  | nil => simp [unitMask]
  | cons v us ih =>
    rw [unitMask, Nat.testBit_or, Bool.or_eq_true, ih, Nat.testBit_two_pow, decide_eq_true_iff]
    simp only [List.mem_cons, exists_eq_or_imp]
    exact or_comm

theorem unitMask_apart (a b : List IvUnit) : unitMask a &&& unitMask b = 0 ↔ ∀ u ∈ a, u ∉ b := by
  constructor
  · intro h u hu hv
    have := congrArg (fun n => n.testBit (unitExp u)) h
    simp only [Nat.testBit_and, Nat.zero_testBit, Bool.and_eq_false_iff] at this
    rcases this with h | h
    · have := (unitMask_bit (unitExp u) a).2 ⟨u, hu, rfl⟩
      rw [h] at this; cases this
    · have := (unitMask_bit (unitExp u) b).2 ⟨u, hv, rfl⟩
      rw [h] at this; cases this
  · intro h
    apply Nat.eq_of_testBit_eq
    intro i
    rw [Nat.testBit_and, Nat.zero_testBit, Bool.and_eq_false_iff]
    by_cases h1 : (unitMask a).testBit i = true
    · right
      obtain ⟨u, hu, e⟩ := (unitMask_bit i a).1 h1
      by_contra h2
      obtain ⟨v, hv, e'⟩ := (unitMask_bit i b).1 (by simpa using h2)
      have := unitExp_inj (e.trans e'.symm)
      subst this
      exact h u hu hv
    · left; simpa using h1

/-- The bits of parts. -/
def partsMask : List IvPart → Nat
  | [] => 0
  | a :: ps => partsMask ps ||| unitMask a.units

theorem and_or_zero {a b c : Nat} : a &&& (b ||| c) = 0 ↔ a &&& b = 0 ∧ a &&& c = 0 := by
  rw [Nat.and_or_distrib_left, Nat.or_eq_zero_iff]

theorem partsMask_apart (a : List IvUnit) (ps : List IvPart) :
    unitMask a &&& partsMask ps = 0 ↔ ∀ b ∈ ps, ∀ u ∈ a, u ∉ b.units := by
  induction ps with
  | nil => simp [partsMask]
  | cons b ps ih =>
    rw [partsMask, and_or_zero, ih, unitMask_apart, List.forall_mem_cons, and_comm]

theorem partsMask_ne {ps : List IvPart} (h : ps ≠ []) : partsMask ps ≠ 0 := by
  cases ps with
  | nil => exact absurd rfl h
  | cons a ps =>
    rw [partsMask]
    intro e
    have := (Nat.or_eq_zero_iff.1 e).2
    obtain ⟨u, hu⟩ : ∃ u, u ∈ a.units := by
      unfold IvPart.units
      cases a with
      | quantity x => simp only; split <;> simp
      | months => simp
      | clock d => exact ⟨.hour, by simp⟩
    have hb := (unitMask_bit (unitExp u) a.units).2 ⟨u, hu, rfl⟩
    rw [this] at hb
    simp at hb

theorem fqMask_units (x : FracQuantity) : fqMask x = unitMask (IvPart.quantity x).units := by
  have key : ∀ u : IvUnit, ∀ a : Bool, (if a then 2 ^ unitExp u else fracMask u) =
      unitMask (if u = .second ∧ a = false then [.second, .millisecond, .microsecond] else [u]) := by
    intro u; cases u <;> decide
  have := key x.whole.unit (decide (x.tenMillionths = 0))
  simp only [decide_eq_true_eq, decide_eq_false_iff_not] at this
  exact this

/-- The clock fields with a sign. -/
def clockTmF (sg : Option Bool) (T : ClockText) (t : TmF) : TmF :=
  ({ t.1 with hour := sgVal sg T.h, min := sgVal sg T.m, sec := sgVal sg T.s }, sgVal sg (clockUs T))

theorem clock_colon {T : ClockText} (hc : T.colons = true) : (T.bytes.any fun b => b = 58) = true := by
  cases T with
  | long => simp [ClockText.bytes, hmsText]
  | short => simp [ClockText.bytes]
  | minSec => simp [ClockText.bytes]
  | six => cases hc
  | four => cases hc

/-- The state after a clock time, up to the mask. -/
def clockIv (sg : Option Bool) (T : ClockText) (s : IvS) : IvS :=
  { s with t := clockTmF sg T s.t, tMask := DTK_TIME_M, ty := TokenField.day.value }

/-- What a clock time does, up to the mask. -/
theorem clock_decode {T : ClockText} (h : T.Ok) (hc : T.colons = true) (sg : Option Bool) (s : IvS) :
    if T.h ≤ 2147483647 ∧ T.m ≤ 59 ∧ T.s ≤ 60 then
      ∀ i, intervalField p plainLook INTERVAL_FULL_RANGE i (timeField sg T.bytes) (s, ()) =
        noLook addMaskI (clockIv sg T s, ())
    else FieldErr p INTERVAL_FULL_RANGE (timeField sg T.bytes) s := by
  have hd := decodeTime_clock h hc ⟨s.tMask, s.t.1, s.t.2⟩
  have hb := clockUs_bounds h
  have hcol : ∀ c : Nat, ((c :: T.bytes).any fun b => b = 58) = true := by
    intro c; rw [List.any_cons, clock_colon hc, Bool.or_true]
  split
  next hk =>
    rw [if_pos hk] at hd
    intro i
    have fin : ∀ m : St IvS Unit, m s = addMaskI (clockIv sg T s) → (noLook m : St (IvS × Unit) Unit) (s, ()) =
        noLook addMaskI (clockIv sg T s, ()) := by
      intro m hm
      exact (noLook_run (r := (addMaskI (clockIv sg T s)).1) (s' := (addMaskI (clockIv sg T s)).2) hm).trans
        (noLook_run rfl).symm
    cases sg with
    | none =>
      refine fin _ ?_
      refine Eq.trans (St.bind_ok (a := ()) (St.zoom_run hd)) ?_
      rw [St.mod_bind]; rfl
    | some neg =>
      refine fin _ ?_
      refine Eq.trans (St.bind_ok (a := ()) (s' := clockIv (some neg) T s) ?_) rfl
      unfold intervalSigned
      rw [if_pos (show ((timeField (some neg) T.bytes).2.any fun b => b = 58) = true from hcol _),
        show (timeField (some neg) T.bytes).2.drop 1 = T.bytes from rfl]
      refine Eq.trans (St.bind_ok (a := ()) (St.zoom_run hd)) ?_
      cases neg with
      | false => rfl
      | true =>
        rw [if_pos (show (timeField (some true) T.bytes).2.head? = some 45 from rfl)]
        refine Eq.trans (St.bind_ok (a := ()) (onTm_run (r := .ok ()) (t := clockTmF (some true) T s.t) ?_)) rfl
        unfold flipTime
        rw [St.get_bind]
        simp only
        rw [chk32_ok (by omega), St.lift_ok_bind, chk32_ok (by omega), St.lift_ok_bind,
          chk32_ok (by omega), St.lift_ok_bind, chk64_ok (by omega), St.lift_ok_bind]
        rfl
  next hk =>
    rw [if_neg hk] at hd
    obtain ⟨e, t', hd⟩ := hd
    intro i
    refine ⟨e, ({ s with tMask := t'.tMask, t := (t'.tm, t'.fsec) }, ()), ?_⟩
    cases sg with
    | none => exact noLook_run (St.bind_err (St.zoom_run hd))
    | some neg =>
      refine noLook_run (St.bind_err ?_)
      unfold intervalSigned
      rw [if_pos (show ((timeField (some neg) T.bytes).2.any fun b => b = 58) = true from hcol _),
        show (timeField (some neg) T.bytes).2.drop 1 = T.bytes from rfl]
      exact St.bind_err (St.zoom_run hd)

/-- The fields of a part. -/
def ivPartFields : IvPart → List Field
  | .quantity x => [fracField x, (.string, lower x.whole.word)]
  | .months sg ys ms => [ymField sg ys ms]
  | .clock none sg T => [timeField sg T.bytes]
  | .clock (some e) sg T => [numField e.1 e.2, timeField sg T.bytes]

/-- The sizes of parts. -/
def sz1 (ps : List IvPart) : Int := (ps.map fun a => a.sizes.1).sum
def sz2 (ps : List IvPart) : Int := (ps.map fun a => a.sizes.2.1).sum
def sz3 (ps : List IvPart) : Int := (ps.map fun a => a.sizes.2.2.1).sum
def sz4 (ps : List IvPart) : Int := (ps.map fun a => a.sizes.2.2.2).sum

theorem sz1_cons (a : IvPart) (ps : List IvPart) : sz1 (a :: ps) = a.sizes.1 + sz1 ps := by simp [sz1]
theorem sz2_cons (a : IvPart) (ps : List IvPart) : sz2 (a :: ps) = a.sizes.2.1 + sz2 ps := by simp [sz2]
theorem sz3_cons (a : IvPart) (ps : List IvPart) : sz3 (a :: ps) = a.sizes.2.2.1 + sz3 ps := by simp [sz3]
theorem sz4_cons (a : IvPart) (ps : List IvPart) : sz4 (a :: ps) = a.sizes.2.2.2 + sz4 ps := by simp [sz4]

/-- The state after parts. -/
def PartsAt (s : IvS) (ps : List IvPart) (ys : List (Int × Int × Int)) (b : Bool) : Prop :=
  List.Forall₂ IvPart.Is ps ys ∧
  (∃ W S : Int, QInv s.t (sumParts ys).1 (sz1 ps + 20000 * ps.length) (sumParts ys).2.1
    (sz2 ps + 100 * ps.length) W (sz3 ps) S
    (sz4 ps + 1000000000000 * ps.length) ∧
    W * 60000000 + S = (sumParts ys).2.2) ∧
  s.fMask = partsMask ps ∧ s.before = b ∧ s.dType = .delta

/-- A part, put in front of others. -/
def Puts (p : Profile) (a : IvPart) (ps : List IvPart) (ys : List (Int × Int × Int)) (l : List Field) (b : Bool) : Prop :=
  if a.InRange ∧ ∀ c ∈ ps, ∀ u ∈ a.units, u ∉ c.units then
    ∃ s y, IvRuns p INTERVAL_FULL_RANGE (ivPartFields a ++ l) {} s ∧ PartsAt s (a :: ps) (y :: ys) b
  else IvFails p INTERVAL_FULL_RANGE (ivPartFields a ++ l) {}

/-- The sizes with those of a new part. -/
structure PartFits (a : IvPart) (ps : List IvPart) : Prop where
  m : a.sizes.1 + sz1 ps ≤ 2000000000
  d : a.sizes.2.1 + sz2 ps ≤ 2000000000
  w : a.sizes.2.2.1 + sz3 ps ≤ 2000000000
  s : a.sizes.2.2.2 + sz4 ps ≤ 2000000000000000
  n : ps.length ≤ 11

theorem QInv.cast {t : TmF} {M M' D D' W W' S S' M2 M2' D2 D2' W2 W2' S2 S2' : Int} (h : QInv t M M' D D' W W' S S')
    (e1 : M2 = M) (e2 : D2 = D) (e3 : W2 = W) (e4 : S2 = S) (h1 : M' ≤ M2') (h2 : D' ≤ D2') (h3 : W' ≤ W2') (h4 : S' ≤ S2') :
    QInv t M2 M2' D2 D2' W2 W2' S2 S2' := by
  subst e1 e2 e3 e4
  exact h.wider h1 h2 h3 h4

theorem puts_quantity {x : FracQuantity} {ps : List IvPart} {ys : List (Int × Int × Int)} {l : List Field} {s : IvS}
    {b : Bool} (hx : x.Ok) (hval : value x.whole.digits ≤ 2147483647) (hf : PartFits (.quantity x) ps)
    (hr : IvRuns p INTERVAL_FULL_RANGE l {} s) (ha : PartsAt s ps ys b) : Puts p (.quantity x) ps ys l b := by
  obtain ⟨hall, ⟨W, S, hinv, hWS⟩, hmask, hb, hd⟩ := ha
  obtain ⟨m1, m2, m3, m4, hn⟩ := hf
  simp only [IvPart.sizes] at m1 m2 m3 m4
  obtain ⟨e, he, ht, hne, hof⟩ := word_unit hx.1
  have hw := hr.cons (step_unit (p := p) (range := INTERVAL_FULL_RANGE) (s := s) he ht)
  have hnum := numberParts_frac (p := p) hx hval
  unfold Puts
  by_cases h7 : x.frac.length ≤ 7
  swap
  · rw [if_neg (fun h => h7 h.1)]
    rw [if_neg h7] at hnum
    refine number_fails hw (fracField_kind hx) (e := .overflow) ?_
    obtain ⟨s', h⟩ := intervalNumber_err (range := INTERVAL_FULL_RANGE) (s := { s with tMask := 0, ty := e.value }) hnum
    exact ⟨s', by rw [St.bind_err h]⟩
  rw [if_pos h7] at hnum
  obtain ⟨t', m, d, sx, ha, hfr, hinv'⟩ := addUnit_any (p := p) hx h7 hinv hval (by omega) (by omega) (by omega) (by omega)
  rw [fqMask_units] at ha
  by_cases hu : ∀ c ∈ ps, ∀ u ∈ (IvPart.quantity x).units, u ∉ c.units
  · rw [if_pos ⟨h7, hu⟩]
    obtain ⟨ty, hst⟩ := step_number (p := p) (range := INTERVAL_FULL_RANGE) (s := { s with tMask := 0, ty := e.value })
      (u := unitTf x.whole.unit) (m := unitMask (IvPart.quantity x).units) (t := t')
      (fracField_kind hx) hnum
      (by
        simp only [Bool.false_eq_true, if_false]
        rw [if_neg hne]; exact hof) ha
      (by simp only; rw [hmask]; exact (partsMask_apart _ _).2 hu)
    refine ⟨_, (x.sgn * (value x.whole.digits * x.whole.unit.months + m),
      x.sgn * (value x.whole.digits * x.whole.unit.days + d),
      x.sgn * (value x.whole.digits * x.whole.unit.micros + sx)), hw.cons hst, .cons ⟨m, d, sx, hfr, rfl⟩ hall,
      ⟨W + x.sgn * (value x.whole.digits * wholeMinutes x.whole.unit),
        S + x.sgn * (value x.whole.digits * subMinute x.whole.unit + sx), ?_, ?_⟩, ?_, hb, hd⟩
    · simp only [sz1_cons, sz2_cons, sz3_cons, sz4_cons, IvPart.sizes, List.length_cons, sumParts, List.map_cons, List.sum_cons] at hinv' ⊢
      refine hinv'.cast (by ring) (by ring) rfl rfl ?_ ?_ ?_ ?_ <;> push_cast <;> omega
    · have eu : wholeMinutes x.whole.unit * 60000000 + subMinute x.whole.unit = x.whole.unit.micros := by
        cases x.whole.unit <;> rfl
      simp only [sumParts, List.map_cons, List.sum_cons] at hWS ⊢
      rw [← eu, ← hWS]
      ring
    · simp only [hmask, partsMask]
  · rw [if_neg (fun h => hu h.2)]
    refine number_fails hw (fracField_kind hx) (e := .invalid) ?_
    obtain ⟨ty, hi⟩ := intervalNumber_ok (p := p) (range := INTERVAL_FULL_RANGE) (s := { s with tMask := 0, ty := e.value })
      (u := unitTf x.whole.unit) (m := unitMask (IvPart.quantity x).units) (t := t') hnum
      (by
        simp only [Bool.false_eq_true, if_false]
        rw [if_neg hne]; exact hof) ha
    rw [St.bind_ok hi]
    exact ⟨_, addMaskI_err (by simp only [hmask]; exact fun hz => hu ((partsMask_apart _ _).1 hz))⟩

theorem signOf_sg (sg : Option Bool) (n : Int) : sgVal sg n = signOf sg * n := by
  unfold sgVal signOf; split <;> ring

theorem sgVal_or (sg : Option Bool) (n : Int) : sgVal sg n = n ∨ sgVal sg n = -n := by
  unfold sgVal; split <;> simp

/-- Twelve months or more beside years are refused. -/
theorem ymParts_err (sg : Option Bool) {ys ms : Bytes} (hy : DigitsOf 1 10 ys) (hm : DigitsOf 1 10 ms)
    (hv : value ys ≤ 2147483647) (hbig : ¬ value ms ≤ 11) : ∃ e, numberParts p (ymField sg ys ms).2 = .err e := by
  have ny := DigitsOf.ne hy (by omega)
  have hym : ∀ neg v, ∃ e, yearMonth p neg v ms = .err e := by
    intro neg v
    unfold yearMonth
    rw [str2i32_all hm.1 (DigitsOf.ne hm (by omega))]
    by_cases c : ms.length ≤ 10 ∧ value ms ≤ 2147483647
    · rw [if_pos c, Res.bind_ok]
      simp only
      rw [if_pos (by omega)]
      exact ⟨_, rfl⟩
    · rw [if_neg c]; exact ⟨_, rfl⟩
  unfold numberParts
  cases sg with
  | none =>
    rw [show (ymField none ys ms).2 = ys ++ 45 :: ms from rfl, str2i32_ok hy.1 ny (Stops.cons rfl) hy.2.2 hv, Res.bind_ok]
    simp only [if_true]
    obtain ⟨e, h⟩ := hym (decide ((ys ++ 45 :: ms).head? = some 45)) (value ys)
    rw [h]; exact ⟨e, rfl⟩
  | some neg =>
    rw [show (ymField (some neg) ys ms).2 = (if neg then 45 else 43) :: (ys ++ 45 :: ms) from rfl,
      str2i32_signed (r := 45 :: ms) neg hy.1 (Stops.cons rfl) hy.2.2 (Or.inl hv), Res.bind_ok]
    simp only [if_true]
    obtain ⟨e, h⟩ := hym (decide (((if neg then 45 else 43) :: (ys ++ 45 :: ms)).head? = some 45))
      (if neg then -(value ys : Int) else value ys)
    rw [h]; exact ⟨e, rfl⟩

theorem puts_months {sg : Option Bool} {yd ms : Bytes} {ps : List IvPart} {ys : List (Int × Int × Int)} {l : List Field}
    {s : IvS} {b : Bool} (hy : DigitsOf 1 10 yd) (hm : DigitsOf 1 10 ms) (hf : PartFits (.months sg yd ms) ps)
    (h0 : 0 ≤ sz1 ps)
    (hr : IvRuns p INTERVAL_FULL_RANGE l {} s) (ha : PartsAt s ps ys b) : Puts p (.months sg yd ms) ps ys l b := by
  obtain ⟨hall, ⟨W, S, hinv, hWS⟩, hmask, hb, hd⟩ := ha
  obtain ⟨m1, m2, m3, m4, hn⟩ := hf
  simp only [IvPart.sizes] at m1 m2 m3 m4
  unfold Puts
  by_cases h11 : value ms ≤ 11
  swap
  · rw [if_neg (fun h => h11 h.1)]
    obtain ⟨e, hp⟩ := ymParts_err (p := p) sg hy hm (by omega) h11
    refine number_fails hr (ym_kind sg hy.1 hm.1) (e := e) ?_
    obtain ⟨s', h⟩ := intervalNumber_err (range := INTERVAL_FULL_RANGE) (s := s) hp
    exact ⟨s', by rw [St.bind_err h]⟩
  have hin : In32 (sgVal sg (value yd * 12 + value ms : Nat)) := by
    unfold In32
    rcases sgVal_or sg (value yd * 12 + value ms : Nat) with e | e <;> rw [e] <;> push_cast <;> omega
  have hp := ymParts (p := p) sg hy.1 (DigitsOf.ne hy (by omega)) hy.2.2 hm.1 (DigitsOf.ne hm (by omega)) hm.2.2 h11 hin
  obtain ⟨t', ha, hinv'⟩ := addUnit_whole p .month (v := sgVal sg (value yd * 12 + value ms : Nat))
    (n := (value yd * 12 + value ms : Nat)) hinv (by omega) (by push_cast; omega) (sgVal_or _ _)
    (by simp only [IvUnit.months]; push_cast; omega) (by simp only [IvUnit.days]; omega)
    (by simp only [wholeMinutes]; omega) (by simp only [subMinute]; omega)
  have hu' : TokenField.ofInt (if true then TokenField.month.value else
      if s.ty = 8 then (rangeUnit INTERVAL_FULL_RANGE).value else s.ty) = .ok (unitTf .month) := by
    simp only [if_true]; decide +kernel
  have emask : 2 ^ unitExp .month = unitMask (IvPart.months sg yd ms).units := by
    simp [IvPart.units, unitMask]
  rw [emask] at ha
  by_cases hu : ∀ c ∈ ps, ∀ u ∈ (IvPart.months sg yd ms).units, u ∉ c.units
  · rw [if_pos ⟨h11, hu⟩]
    obtain ⟨ty, hst⟩ := step_number (p := p) (range := INTERVAL_FULL_RANGE) (s := s) (u := unitTf .month)
      (m := unitMask (IvPart.months sg yd ms).units) (t := t') (ym_kind sg hy.1 hm.1) hp hu' ha
      (by rw [hmask]; exact (partsMask_apart _ _).2 hu)
    refine ⟨_, (signOf sg * (value yd * 12 + value ms), 0, 0), hr.cons hst, .cons rfl hall, ⟨W, S, ?_, ?_⟩, ?_, hb, hd⟩
    · rw [signOf_sg] at hinv'
      simp only [sz1_cons, sz2_cons, sz3_cons, sz4_cons, IvPart.sizes, List.length_cons, sumParts, List.map_cons, List.sum_cons, IvUnit.months, IvUnit.days,
        wholeMinutes, subMinute, mul_one, mul_zero, add_zero] at hinv' ⊢
      push_cast at hinv' ⊢
      refine hinv'.cast (by ring) (by ring) rfl rfl ?_ ?_ ?_ ?_ <;> omega
    · simp only [sumParts, List.map_cons, List.sum_cons] at hWS ⊢
      omega
    · simp only [hmask, partsMask]
  · rw [if_neg (fun h => hu h.2)]
    refine number_fails hr (ym_kind sg hy.1 hm.1) (e := .invalid) ?_
    obtain ⟨ty, hi⟩ := intervalNumber_ok (p := p) (range := INTERVAL_FULL_RANGE) (s := s) (u := unitTf .month)
      (m := unitMask (IvPart.months sg yd ms).units) (t := t') hp hu' ha
    rw [St.bind_ok hi]
    exact ⟨_, addMaskI_err (by simp only [hmask]; exact fun hz => hu ((partsMask_apart _ _).1 hz))⟩

/-- The units of a clock time. -/
abbrev clockUnits : List IvUnit := [.hour, .minute, .second, .millisecond, .microsecond]

theorem part_micros {c : IvPart} {y : Int × Int × Int} (h : c.Is y) (hc : ∀ u ∈ clockUnits, u ∉ c.units)
    (hs : ¬ c.SplitsDays) : y.2.2 = 0 := by
  cases c with
  | months => rw [show y = _ from h]
  | clock d sg T => exact absurd (by simp [IvPart.units]) (hc .hour (by simp))
  | quantity x =>
    obtain ⟨m, d, s, hf, rfl⟩ := h
    have hu : x.whole.unit ∉ clockUnits := by
      intro hm
      refine hc _ hm ?_
      unfold IvPart.units
      simp only
      split
      next h => rw [h.1]; simp
      next => simp
    unfold IvPart.SplitsDays at hs
    simp only at hs
    have key : s = 0 ∧ x.whole.unit.micros = 0 := by
      revert hs hu hf
      unfold FractionIs
      cases x.whole.unit
      case day =>
        intro hs hf hu
        have h0 : x.tenMillionths = 0 := by by_contra h; exact hs ⟨Or.inl rfl, h⟩
        rw [h0] at hf
        exact ⟨by rw [hf.2.2]; rfl, rfl⟩
      case week =>
        intro hs hf hu
        have h0 : x.tenMillionths = 0 := by by_contra h; exact hs ⟨Or.inr (Or.inl rfl), h⟩
        rw [h0] at hf
        exact ⟨by rw [hf.2.2]; rfl, rfl⟩
      case month =>
        intro hs hf hu
        have h0 : x.tenMillionths = 0 := by by_contra h; exact hs ⟨Or.inr (Or.inr rfl), h⟩
        rw [h0] at hf
        exact ⟨by rw [hf.2.2]; rfl, rfl⟩
      all_goals
        intro hs hf hu
        first
          | exact ⟨hf.2.2, rfl⟩
          | exact absurd (by simp) hu
    simp only [key.1, key.2]
    ring

theorem rest_micros {ps : List IvPart} {ys : List (Int × Int × Int)} (hall : List.Forall₂ IvPart.Is ps ys)
    (hc : ∀ c ∈ ps, ∀ u ∈ clockUnits, u ∉ c.units) (hs : ∀ c ∈ ps, ¬ c.SplitsDays) : (sumParts ys).2.2 = 0 := by
  induction hall with
  | nil => rfl
  | cons h _ ih =>
    have h1 := part_micros h (hc _ (by simp)) (hs _ (by simp))
    have h2 := ih (fun c hm => hc c (List.mem_cons_of_mem _ hm)) (fun c hm => hs c (List.mem_cons_of_mem _ hm))
    simp only [sumParts, List.map_cons, List.sum_cons] at h2 ⊢
    omega

theorem clockMask : unitMask clockUnits = DTK_TIME_M := by decide

/-- The clock time itself. -/
theorem puts_time {sg : Option Bool} {T : ClockText} {ps : List IvPart} {ys : List (Int × Int × Int)} {l : List Field}
    {s : IvS} {b : Bool} (hT : T.Ok) (hc : T.colons = true) (hf : PartFits (.clock none sg T) ps)
    (hz : 0 ≤ sz3 ps ∧ 0 ≤ sz4 ps) (hsd : ∀ c ∈ ps, ¬ c.SplitsDays)
    (hr : IvRuns p INTERVAL_FULL_RANGE l {} s) (ha : PartsAt s ps ys b) :
    if (T.m ≤ 59 ∧ T.s ≤ 60) ∧ ∀ c ∈ ps, ∀ u ∈ clockUnits, u ∉ c.units then
      ∃ s', IvRuns p INTERVAL_FULL_RANGE (timeField sg T.bytes :: l) {} s' ∧ s'.ty = TokenField.day.value ∧
        PartsAt s' (.clock none sg T :: ps) ((0, 0, signOf sg * clockValue T.h T.m T.s (clockUs T)) :: ys) b
    else IvFails p INTERVAL_FULL_RANGE (timeField sg T.bytes :: l) {} := by
  obtain ⟨hall, ⟨W, S, hinv, hWS⟩, hmask, hb, hd⟩ := ha
  obtain ⟨m1, m2, m3, m4, hn⟩ := hf
  simp only [IvPart.sizes] at m1 m2 m3 m4
  have hdec := clock_decode (p := p) hT hc sg s
  have hus := clockUs_bounds hT
  by_cases hrg : T.m ≤ 59 ∧ T.s ≤ 60
  swap
  · rw [if_neg (fun h => hrg h.1)]
    rw [if_neg (fun h => hrg h.2)] at hdec
    exact hr.fails hdec
  rw [if_pos ⟨by omega, hrg⟩] at hdec
  by_cases hu : ∀ c ∈ ps, ∀ u ∈ clockUnits, u ∉ c.units
  · rw [if_pos ⟨hrg, hu⟩]
    have hclr : (clockIv sg T s).tMask &&& (clockIv sg T s).fMask = 0 := by
      show DTK_TIME_M &&& s.fMask = 0
      rw [hmask, ← clockMask]
      exact (partsMask_apart _ _).2 hu
    have hsum := rest_micros hall hu hsd
    refine ⟨_, hr.cons (s'' := { clockIv sg T s with fMask := (clockIv sg T s).fMask ||| (clockIv sg T s).tMask })
      (fun i => (hdec i).trans (noLook_run (addMaskI_ok hclr))), rfl, .cons ⟨clockUs T, clockUs_nearest hT, rfl⟩ hall,
      ⟨sgVal sg (T.h * 60 + T.m), sgVal sg (T.s * 1000000 + clockUs T), ?_, ?_⟩, ?_, hb, hd⟩
    · obtain ⟨i1, i2, i3, i4, -, -, -, -⟩ := hinv
      simp only [sz1_cons, sz2_cons, sz3_cons, sz4_cons, IvPart.sizes, List.length_cons, sumParts, List.map_cons, List.sum_cons] at i1 i3 ⊢
      unfold Abs2 at i2 i4
      simp only [clockIv, clockTmF]
      have e1 := signOf_sg sg
      have hsg : signOf sg = 1 ∨ signOf sg = -1 := by unfold signOf; split <;> simp
      push_cast
      constructor
      · simp only; omega
      · simp only [Abs2]; omega
      · simp only; omega
      · simp only [Abs2]; omega
      · simp only [e1]; ring
      · simp only [e1, Abs2]; rcases hsg with e | e <;> rw [e] <;> omega
      · simp only [e1]; ring
      · simp only [e1, Abs2]; rcases hsg with e | e <;> rw [e] <;> omega
    · simp only [sumParts, List.map_cons, List.sum_cons] at hsum ⊢
      rw [hsum, signOf_sg, signOf_sg]
      unfold clockValue
      ring
    · simp only [clockIv, hmask, partsMask, IvPart.units, Option.isSome_none, Bool.false_eq_true, if_false, List.nil_append]
      rw [← clockMask]
  · rw [if_neg (fun h => hu h.2)]
    refine hr.fails ?_
    intro i
    refine ⟨_, _, (hdec i).trans (noLook_run (addMaskI_err ?_))⟩
    show DTK_TIME_M &&& s.fMask ≠ 0
    rw [hmask, ← clockMask]
    exact fun hz => hu ((partsMask_apart _ _).1 hz)

theorem puts_clock {d : Option (Option Bool × List Nat)} {sg : Option Bool} {T : ClockText} {ps : List IvPart}
    {ys : List (Int × Int × Int)} {l : List Field} {s : IvS} {b : Bool} (ho : (IvPart.clock d sg T).Ok)
    (hf : PartFits (.clock d sg T) ps) (hz : 0 ≤ sz2 ps ∧ 0 ≤ sz3 ps ∧ 0 ≤ sz4 ps) (hsd : ∀ c ∈ ps, ¬ c.SplitsDays)
    (hr : IvRuns p INTERVAL_FULL_RANGE l {} s) (ha : PartsAt s ps ys b) : Puts p (.clock d sg T) ps ys l b := by
  obtain ⟨hd, hT, hc⟩ := ho
  have hf' : PartFits (.clock none sg T) ps := by
    obtain ⟨m1, m2, m3, m4, hn⟩ := hf
    refine ⟨m1, ?_, m3, m4, hn⟩
    cases d with
    | none => exact m2
    | some e =>
      simp only [IvPart.sizes] at m2 ⊢
      omega
  have ht := puts_time (p := p) hT hc hf' hz.2 hsd hr ha
  unfold Puts
  cases d with
  | none =>
    refine ite_of ?_ (Iff.rfl : (_ ↔ (T.m ≤ 59 ∧ T.s ≤ 60) ∧ ∀ c ∈ ps, ∀ u ∈ clockUnits, u ∉ c.units))
    split
    next h =>
      rw [if_pos h] at ht
      obtain ⟨s', h1, -, h2⟩ := ht
      exact ⟨s', _, h1, h2⟩
    next h =>
      rw [if_neg h] at ht
      exact ht
  | some e =>
    have hde := hd e rfl
    show if (T.m ≤ 59 ∧ T.s ≤ 60) ∧ ∀ c ∈ ps, ∀ u ∈ (IvUnit.day :: clockUnits), u ∉ c.units then _ else _
    by_cases h1 : (T.m ≤ 59 ∧ T.s ≤ 60) ∧ ∀ c ∈ ps, ∀ u ∈ clockUnits, u ∉ c.units
    swap
    · rw [if_neg h1] at ht
      rw [if_neg (fun h => h1 ⟨h.1, fun c hm u hu => h.2 c hm u (List.mem_cons_of_mem _ hu)⟩)]
      exact ht.cons
    rw [if_pos h1] at ht
    obtain ⟨s', hr', hty, hall, ⟨W, S, hinv, hWS⟩, hmask, hb, hdt⟩ := ht
    obtain ⟨m1, m2, m3, m4, hn⟩ := hf
    simp only [IvPart.sizes] at m1 m2 m3 m4
    simp only [sz1_cons, sz2_cons, sz3_cons, sz4_cons, IvPart.sizes, List.length_cons] at hinv
    have hp := numberParts_sg (p := p) e.1 hde.1 (DigitsOf.ne hde (by omega)) hde.2.2 (by omega)
    obtain ⟨t', ha, hinv'⟩ := addUnit_whole p .day (v := sgVal e.1 (value e.2)) (n := value e.2) hinv (by omega) (by omega)
      (sgVal_or _ _) (by simp only [IvUnit.months]; push_cast; omega) (by simp only [IvUnit.days]; push_cast; omega)
      (by simp only [wholeMinutes]; omega) (by simp only [subMinute]; push_cast; omega)
    have hu' : TokenField.ofInt (if false then TokenField.month.value else
        if s'.ty = 8 then (rangeUnit INTERVAL_FULL_RANGE).value else s'.ty) = .ok (unitTf .day) := by
      simp only [hty, Bool.false_eq_true, if_false]
      rw [if_neg (by decide)]; decide +kernel
    have hall' := hall
    have hiff : 2 ^ unitExp .day &&& s'.fMask = 0 ↔ ∀ c ∈ ps, IvUnit.day ∉ c.units := by
      rw [hmask, show (2 : Nat) ^ unitExp .day = unitMask [.day] by simp [unitMask], partsMask_apart]
      simp [IvPart.units]
    by_cases hu : ∀ c ∈ ps, IvUnit.day ∉ c.units
    · rw [if_pos ⟨h1.1, fun c hm u hu' => by
        rcases List.mem_cons.1 hu' with rfl | hu'
        · exact hu c hm
        · exact h1.2 c hm u hu'⟩]
      obtain ⟨ty, hst⟩ := step_number (p := p) (range := INTERVAL_FULL_RANGE) (s := s') (u := unitTf .day)
        (m := 2 ^ unitExp .day) (t := t') (numField_kind e.1 hde.1) hp hu' ha (hiff.2 hu)
      obtain ⟨hcl, hps⟩ := List.forall₂_cons.1 hall
      refine ⟨_, (0, signOf e.1 * value e.2, signOf sg * clockValue T.h T.m T.s (clockUs T)), hr'.cons hst,
        .cons ⟨clockUs T, clockUs_nearest hT, rfl⟩ hps, ⟨W, S, ?_, ?_⟩, ?_, hb, hdt⟩
      · rw [signOf_sg] at hinv'
        simp only [sz1_cons, sz2_cons, sz3_cons, sz4_cons, IvPart.sizes, List.length_cons, sumParts, List.map_cons,
          List.sum_cons, IvUnit.months, IvUnit.days, wholeMinutes, subMinute, mul_one, mul_zero, add_zero] at hinv' ⊢
        push_cast at hinv' ⊢
        refine hinv'.cast (by ring) (by ring) rfl rfl ?_ ?_ ?_ ?_ <;> omega
      · simp only [sumParts, List.map_cons, List.sum_cons] at hWS ⊢
        omega
      · simp only [hmask, partsMask, IvPart.units, Option.isSome_none, Option.isSome_some, Bool.false_eq_true, if_false,
          if_true, List.nil_append, List.cons_append, unitMask, Nat.or_assoc]
    · rw [if_neg (fun h => hu fun c hm => h.2 c hm _ (by simp))]
      refine number_fails hr' (numField_kind e.1 hde.1) (e := .invalid) ?_
      obtain ⟨ty, hi⟩ := intervalNumber_ok (p := p) (range := INTERVAL_FULL_RANGE) (s := s') (u := unitTf .day)
        (m := 2 ^ unitExp .day) (t := t') hp hu' ha
      rw [St.bind_ok hi]
      exact ⟨_, addMaskI_err (by simp only; exact fun hz => hu (hiff.1 hz))⟩

/-- The fields of parts. -/
def partsFields (ps : List IvPart) (l : List Field) : List Field := (ps.map ivPartFields).flatten ++ l

theorem sizes_nonneg (a : IvPart) : 0 ≤ a.sizes.1 ∧ 0 ≤ a.sizes.2.1 ∧ 0 ≤ a.sizes.2.2.1 ∧ 0 ≤ a.sizes.2.2.2 := by
  cases a with
  | quantity x =>
    obtain ⟨n1, n2, n3, n4⟩ := unit_nonneg x.whole.unit
    have hv : (0 : Int) ≤ value x.whole.digits := by omega
    exact ⟨mul_nonneg hv n1, mul_nonneg hv n2, mul_nonneg hv n3, mul_nonneg hv n4⟩
  | months s ys ms => simp only [IvPart.sizes]; omega
  | clock d s T =>
    simp only [IvPart.sizes]
    cases d <;> simp only <;> omega

theorem sz_nonneg (ps : List IvPart) : 0 ≤ sz1 ps ∧ 0 ≤ sz2 ps ∧ 0 ≤ sz3 ps ∧ 0 ≤ sz4 ps := by
  induction ps with
  | nil => simp [sz1, sz2, sz3, sz4]
  | cons a ps ih =>
    have := sizes_nonneg a
    rw [sz1_cons, sz2_cons, sz3_cons, sz4_cons]
    omega

theorem partsModest_tail {a : IvPart} {ps : List IvPart} (h : PartsModest (a :: ps)) : PartsModest ps := by
  obtain ⟨h1, h2, h3, h4, h5⟩ := h
  have n := sizes_nonneg a
  simp only [List.map_cons, List.sum_cons] at h1 h2 h3 h4
  exact ⟨by omega, by omega, by omega, by omega, fun r hr => h5 r (List.mem_cons_of_mem _ hr)⟩

/-- Decoding parts. -/
theorem parts_runs {l : List Field} {s0 : IvS} {b : Bool} (hl : IvRuns p INTERVAL_FULL_RANGE l {} s0)
    (h0 : IvAt s0 ({}, 0) 0 b) (ps : List IvPart) : (∀ a ∈ ps, a.Ok) → PartsModest ps → FractionsFirst ps → ps.length ≤ 12 →
    (PartsFit ps → ∃ s ys, IvRuns p INTERVAL_FULL_RANGE (partsFields ps l) {} s ∧ PartsAt s ps ys b) ∧
    (¬ PartsFit ps → IvFails p INTERVAL_FULL_RANGE (partsFields ps l) {}) := by
  induction ps with
  | nil =>
    intro _ _ _ _
    refine ⟨fun _ => ⟨s0, [], by simpa [partsFields] using hl, .nil, ⟨0, 0, ?_, rfl⟩, h0.2.1, h0.2.2.1, h0.2.2.2⟩,
      fun h => absurd ⟨by simp, List.Pairwise.nil⟩ h⟩
    rw [h0.1]
    constructor <;> simp [sumParts, sz1, sz2, sz3, sz4, Abs2]
  | cons a ps ih =>
    intro hok hmod hff hlen
    rw [List.length_cons] at hlen
    obtain ⟨hff1, hff2⟩ := List.pairwise_cons.1 hff
    obtain ⟨ih1, ih2⟩ := ih (fun r hr => hok r (List.mem_cons_of_mem _ hr)) (partsModest_tail hmod) hff2 (by omega)
    have efs : partsFields (a :: ps) l = ivPartFields a ++ partsFields ps l := by simp [partsFields]
    rw [efs]
    have ffail : ∀ fs : List Field, ∀ k : List Field, IvFails p INTERVAL_FULL_RANGE k {} →
        IvFails p INTERVAL_FULL_RANGE (fs ++ k) {} := by
      intro fs k hk
      induction fs with
      | nil => exact hk
      | cons f fs ihf => exact ihf.cons
    by_cases hfit : PartsFit ps
    swap
    · refine ⟨fun h => absurd ⟨fun y hy => h.1 y (List.mem_cons_of_mem _ hy), (List.pairwise_cons.1 h.2).2⟩ hfit,
        fun _ => ffail _ _ (ih2 hfit)⟩
    obtain ⟨s, ys, hr, hat⟩ := ih1 hfit
    have hz := sz_nonneg ps
    have hmod' := hmod
    obtain ⟨m1, m2, m3, m4, m5⟩ := hmod'
    simp only [List.map_cons, List.sum_cons] at m1 m2 m3 m4
    have hf : PartFits a ps := ⟨m1, m2, m3, m4, by omega⟩
    have hput : Puts p a ps ys (partsFields ps l) b := by
      have ho := hok a (by simp)
      cases a with
      | quantity x => exact puts_quantity ho (m5 (.quantity x) (by simp)) hf hr hat
      | months sg yd ms => exact puts_months ho.1 ho.2 hf hz.1 hr hat
      | clock d sg T => exact puts_clock ho hf hz.2 (fun c hc => hff1 c hc trivial) hr hat
    unfold Puts at hput
    have hiff : (a.InRange ∧ ∀ c ∈ ps, ∀ u ∈ a.units, u ∉ c.units) ↔ PartsFit (a :: ps) := by
      unfold PartsFit
      rw [List.forall_mem_cons, List.pairwise_cons]
      exact ⟨fun h => ⟨⟨h.1, hfit.1⟩, h.2, hfit.2⟩, fun h => ⟨h.1.1, h.2.1⟩⟩
    refine ⟨fun h => ?_, fun h => ?_⟩
    · rw [if_pos (hiff.2 h)] at hput
      obtain ⟨s', y, h1, h2⟩ := hput
      exact ⟨s', y :: ys, h1, h2⟩
    · rw [if_neg (fun q => h (hiff.1 q))] at hput
      exact hput

end Pg
