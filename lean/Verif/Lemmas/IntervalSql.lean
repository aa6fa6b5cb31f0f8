import Verif.Lemmas.IntervalPg
import Verif.Lemmas.F64

/-! # Reading back intervals printed in the SQL standard style -/

namespace Pg
open Spec

variable {p : Profile} {range : Nat}

/-- The field `years-months` with an optional sign. -/
def ymField (sg : Option Bool) (ys ms : Bytes) : Field :=
  match sg with
  | none => (.date, ys ++ 45 :: ms)
  | some neg => (.tz, (if neg then 45 else 43) :: (ys ++ 45 :: ms))

theorem ymField_snd (sg : Option Bool) (ys ms : Bytes) : (ymField sg ys ms).2 = sgBytes sg ++ (ys ++ 45 :: ms) := by
  cases sg <;> rfl

theorem ym_scans (k : TokenField) (sg : Option Bool) {ys ms rest : Bytes} {l : List Field} (hy : Digits ys)
    (ny : ys ≠ []) (hm : Digits ms) (nm : ms ≠ []) (hr : Gap rest) (h : Scans k rest l) :
    Scans k (sgBytes sg ++ (ys ++ (45 :: (ms ++ rest)))) (ymField sg ys ms :: l) := by
  cases sg with
  | none =>
    show Scans k (ys ++ (45 :: (ms ++ rest))) ((.date, ys ++ 45 :: ms) :: l)
    refine Scans.digit hy ny ?_ (by simp; omega) (by simp) h
    rw [scanDigit, takeWhile_span (digits_isDigit hy) (Stops.cons rfl),
      dropWhile_span (digits_isDigit hy) (Stops.cons rfl)]
    simp only
    obtain ⟨x, t, e, hx, -⟩ := digit_head (r := rest) hm nm
    have hd := hr.stops (q := isDigit) rfl
    have hsd : scanDelim 45 (ms ++ rest) = (.date, 45 :: ms, rest) := by
      rw [e, scanDelim, if_pos hx, ← e, dropWhile_span (digits_isDigit hm) hd,
        takeWhile_span (digits_isDigit hm) hd]
      simp only
      rw [if_neg (by rcases hr with rfl | ⟨r', rfl⟩ <;> simp)]
      rfl
    rw [hsd]
    rfl
  | some neg =>
    have e : ys ++ (45 :: (ms ++ rest)) = (ys ++ 45 :: ms) ++ rest := by simp
    rw [e]
    obtain ⟨x, t, e', hx, -⟩ := digit_head (r := 45 :: ms) hy ny
    refine Scans.signed (by cases neg <;> simp) ⟨x, t, e', hx⟩ ?_ (hr.stops rfl) h
    intro b hb
    rcases List.mem_append.1 hb with hb | hb
    · exact digits_signed hy b hb
    rcases List.mem_cons.1 hb with rfl | hb
    · rfl
    · exact digits_signed hm b hb

theorem yearMonth_ok {neg : Bool} {val : Int} {ms : Bytes} (hm : Digits ms) (nm : ms ≠ []) (lm : ms.length ≤ 10)
    (hv : value ms ≤ 11) (hval : In32 val)
    (hn : In32 (val * 12)) (hin : In32 (val * 12 + if neg then -(value ms : Int) else value ms)) :
    yearMonth p neg val ms = .ok (val * 12 + if neg then -(value ms : Int) else value ms) := by
  unfold yearMonth
  rw [str2i32_all hm nm, if_pos ⟨lm, by omega⟩, Res.bind_ok]
  simp only
  rw [if_neg (by omega), if_neg (by simp)]
  have hs : signMonths p neg (value ms) = .ok (if neg then -(value ms : Int) else value ms) := by
    unfold signMonths
    cases neg
    · rfl
    · simp only [if_true]; rw [chk32_ok (by omega)]
  rw [hs, Res.bind_ok]
  generalize hw : (if neg then -(value ms : Int) else value ms) = w at *
  have hwb : -11 ≤ w ∧ w ≤ 11 := by rw [← hw]; split <;> omega
  unfold In32 at hval hn hin
  have e1 : ((F64.ofInt val).mul (F64.ofInt 12)).add (F64.ofInt w) = .fin ((val * 12 + w : Int) : Rat) := by
    rw [F64.ofInt_ok (n := val) (by omega), F64.ofInt_ok (n := 12) (by omega), F64.ofInt_ok (n := w) (by omega)]
    have e2 : (F64.fin ((val : Int) : Rat)).mul (.fin ((12 : Int) : Rat)) = .fin ((val * 12 : Int) : Rat) := by
      have := F64.ofInt_ok (n := val * 12) (by omega)
      unfold F64.ofInt at this
      show F64.rnd _ = _
      rw [← this]; push_cast; rfl
    rw [e2]
    have := F64.ofInt_ok (n := val * 12 + w) (by omega)
    unfold F64.ofInt at this
    show F64.rnd _ = _
    rw [← this]; push_cast; rfl
  rw [e1, F64.ofInt_ok (n := 2147483647) (by omega), F64.ofInt_ok (n := -2147483648) (by omega)]
  have hlt : ¬ ((F64.lt (.fin ((2147483647 : Int) : Rat)) (.fin ((val * 12 + w : Int) : Rat))) = true ∨
      (F64.lt (.fin ((val * 12 + w : Int) : Rat)) (.fin ((-2147483648 : Int) : Rat))) = true) := by
    unfold F64.lt
    simp only [decide_eq_true_eq, Int.cast_lt]
    omega
  rw [if_neg hlt, chk32_ok (by omega), Res.bind_ok, chk32_ok (by omega)]

theorem ymParts (sg : Option Bool) {ys ms : Bytes} (hy : Digits ys) (ny : ys ≠ []) (ly : ys.length ≤ 10)
    (hm : Digits ms) (nm : ms ≠ []) (lm : ms.length ≤ 10) (hv : value ms ≤ 11)
    (hin : In32 (sgVal sg (value ys * 12 + value ms : Nat))) :
    numberParts p (ymField sg ys ms).2 = .ok (sgVal sg (value ys * 12 + value ms : Nat), .fin 0, true) := by
  unfold In32 at hin
  cases sg with
  | none =>
    simp only [sgVal, reduceCtorEq, if_false] at hin ⊢
    show numberParts p (ys ++ 45 :: ms) = _
    unfold numberParts
    rw [str2i32_ok hy ny (Stops.cons rfl) ly (by omega), Res.bind_ok]
    simp only [if_true]
    have hneg : decide ((ys ++ 45 :: ms).head? = some 45) = false := by
      obtain ⟨x, t, e, hx, -⟩ := digit_head (r := 45 :: ms) hy ny
      rw [e]
      rw [isDigit_iff] at hx
      simp; omega
    rw [hneg, yearMonth_ok hm nm lm hv (by unfold In32; omega) (by unfold In32; omega)
      (by simp only [Bool.false_eq_true, if_false, In32]; omega), Res.bind_ok]
    simp
  | some neg =>
    cases neg with
    | false =>
      simp only [sgVal, Option.some.injEq, Bool.false_eq_true, if_false] at hin ⊢
      show numberParts p (43 :: (ys ++ 45 :: ms)) = _
      unfold numberParts
      have := str2i32_signed (r := 45 :: ms) false hy (Stops.cons rfl) ly (Or.inl (by omega))
      simp only [Bool.false_eq_true, if_false] at this
      rw [this, Res.bind_ok]
      simp only [if_true]
      have hneg : decide ((43 :: (ys ++ 45 :: ms)).head? = some 45) = false := by simp
      rw [hneg, yearMonth_ok hm nm lm hv (by unfold In32; omega) (by unfold In32; omega)
        (by simp only [Bool.false_eq_true, if_false, In32]; omega), Res.bind_ok]
      simp
    | true =>
      simp only [sgVal, if_true] at hin ⊢
      show numberParts p (45 :: (ys ++ 45 :: ms)) = _
      unfold numberParts
      have := str2i32_signed (r := 45 :: ms) true hy (Stops.cons rfl) ly (Or.inl (by omega))
      simp only [if_true] at this
      rw [this, Res.bind_ok]
      simp only [if_true]
      have hneg : decide ((45 :: (ys ++ 45 :: ms)).head? = some 45) = true := by simp
      rw [hneg, yearMonth_ok hm nm lm hv (by unfold In32; omega) (by unfold In32; omega)
        (by simp only [if_true, In32]; omega), Res.bind_ok]
      simp only [if_true, Res.ok.injEq, Prod.mk.injEq, and_true]
      push_cast; ring

theorem ym_noColon {b : Bytes} (h : ∀ x ∈ b, isDigit x = true ∨ x = 45 ∨ x = 43) : NoColon b := by
  unfold NoColon
  rw [List.any_eq_false]
  intro x hx
  have := h x hx
  rw [isDigit_iff] at this
  simp; omega

theorem ym_kind (sg : Option Bool) {ys ms : Bytes} (hy : Digits ys) (hm : Digits ms) :
    (ymField sg ys ms).1 = .number ∨ (ymField sg ys ms).1 = .date ∨
      (ymField sg ys ms).1 = .tz ∧ NoColon (ymField sg ys ms).2 := by
  cases sg with
  | none => exact Or.inr (Or.inl rfl)
  | some neg =>
    refine Or.inr (Or.inr ⟨rfl, ym_noColon ?_⟩)
    intro x hx
    simp only [ymField] at hx
    rcases List.mem_cons.1 hx with rfl | hx
    · cases neg <;> simp
    rcases List.mem_append.1 hx with hx | hx
    · exact Or.inl (digits_isDigit hy x hx)
    rcases List.mem_cons.1 hx with rfl | hx
    · simp
    · exact Or.inl (digits_isDigit hm x hx)

/-- Decoding `years-months`. -/
theorem ym_runs {sg : Option Bool} {m : Int} {l : List Field} {s0 s : IvS} {t : TmF} {k : Nat} {b : Bool}
    (hr : IvRuns p range l s0 s) (hs : IvAt s t k b) (hm : In32 m) (hsg : sgVal sg m.natAbs = m)
    (hg : t.1.mon = 0) (hk : DTK_MONTH_M &&& k = 0) :
    ∃ s', IvRuns p range (ymField sg (natText (ivYear m).natAbs) (natText (ivMon m).natAbs) :: l) s0 s' ∧
      IvAt s' ({ t.1 with mon := m }, t.2) (k ||| DTK_MONTH_M) b := by
  obtain ⟨e1, e2, e3, e4⟩ := hs
  have hy : (ivYear m).natAbs ≤ 178956970 := by
    unfold ivYear In32 at *
    have := tdiv_or m 12
    omega
  have hmo : (ivMon m).natAbs ≤ 11 := by
    unfold ivMon
    have := tmod_or m 12
    omega
  have hsum : (ivYear m).natAbs * 12 + (ivMon m).natAbs = m.natAbs := by
    unfold ivYear ivMon
    have := tdiv_or m 12
    have := tmod_or m 12
    omega
  have hp := ymParts (p := p) sg (natText_digits (ivYear m).natAbs) (natText_ne _) (natText_len10 (by omega))
    (natText_digits (ivMon m).natAbs) (natText_ne _) (natText_len10 (by omega)) (by rw [natText_value]; omega)
    (by rw [natText_value, natText_value, hsum, hsg]; exact hm)
  rw [natText_value, natText_value, hsum, hsg] at hp
  obtain ⟨ty, hst⟩ := step_number (p := p) (range := range) (s := s) (u := .month) (m := DTK_MONTH_M)
    (t := ({ t.1 with mon := m }, t.2))
    (ym_kind sg (natText_digits (ivYear m).natAbs) (natText_digits (ivMon m).natAbs)) hp
    (by simp only [if_true]; decide +kernel)
    (by
      rw [e1]
      have := addUnit_plain (p := p) (u := .month) (v := m) (t := t) (by simp [PlainU])
        (by simp only [getU]; rw [hg, Int.zero_add]; exact hm)
      rw [this]
      simp only [bitU, bump, hg, Int.zero_add])
    (by rw [e2]; exact hk)
  exact ⟨_, hr.cons hst, rfl, by simp only [e2], e3, e4⟩

/-- Decoding a number of days in front of a clock time. -/
theorem days_runs {sg : Option Bool} {d : Int} {l : List Field} {s0 s : IvS} {t : TmF} {k : Nat} {b : Bool}
    (hr : IvRuns p range l s0 s) (hs : IvAt s t k b) (hty : s.ty = TokenField.day.value) (hd : d.natAbs ≤ 2147483647)
    (hg : t.1.mday = 0) (hk : DTK_DAY_M &&& k = 0) :
    ∃ s', IvRuns p range (numField sg (natText d.natAbs) :: l) s0 s' ∧
      IvAt s' ({ t.1 with mday := sgVal sg d.natAbs }, t.2) (k ||| DTK_DAY_M) b := by
  obtain ⟨e1, e2, e3, e4⟩ := hs
  have hp := numberParts_sg (p := p) sg (natText_digits d.natAbs) (natText_ne _) (natText_len10 (by omega))
    (by rw [natText_value]; omega)
  rw [natText_value] at hp
  obtain ⟨ty, hst⟩ := step_number (p := p) (range := range) (s := s) (u := .day) (m := DTK_DAY_M)
    (t := ({ t.1 with mday := sgVal sg d.natAbs }, t.2)) (numField_kind sg (natText_digits d.natAbs)) hp
    (by simp only [hty, Bool.false_eq_true, if_false]; rw [if_neg (by decide)]; decide +kernel)
    (by
      rw [e1]
      have := addUnit_plain (p := p) (u := .day) (v := sgVal sg d.natAbs) (t := t) (by simp [PlainU])
        (by simp only [getU]; rw [hg]; exact sgVal_in sg hd)
      rw [this]
      simp only [bitU, bump, hg, Int.zero_add])
    (by rw [e2]; exact hk)
  exact ⟨_, hr.cons hst, rfl, by simp only [e2], e3, e4⟩

/-- Decoding the clock time, which is the last field. -/
theorem sqlClock_runs (sg : Option Bool) {t : Int} (hb : (ivHour t).natAbs ≤ 2147483647) :
    ∃ s, IvRuns p range [timeField sg (sqlClockText t)] {} s ∧
      IvAt s ({ hour := sgVal sg (ivHour t).natAbs, min := sgVal sg (ivMin t).natAbs, sec := sgVal sg (ivSec t) },
        sgVal sg (ivMicro t)) DTK_TIME_M false ∧ s.ty = TokenField.day.value := by
  have st := clock_step (p := p) (range := range) (s := {}) sg t
    (natText_digits (ivHour t).natAbs) (natText_ne _) (natText_len10 (by omega)) (natText_value _) hb (by decide)
  exact ⟨_, IvRuns.nil.cons st, ⟨rfl, by simp, rfl, rfl⟩, rfl⟩

theorem sqlSign_plain {f : Field} {fs : List Field} (hne : f.2 ≠ []) (h : f.2.head? ≠ some 45) (t : TmF) :
    sqlSign .sqlStandard (f :: fs) t = (.ok (), t) := by
  obtain ⟨k, b⟩ := f
  cases b with
  | nil => exact absurd rfl hne
  | cons c r =>
    simp only [sqlSign, if_true]
    rw [if_neg (by rintro ⟨rfl, -⟩; exact h rfl)]; rfl

theorem sqlSign_signed {f : Field} {fs : List Field} (hne : f.2 ≠ []) (h : (fs.any fun g => hasSign g.2) = true)
    (t : TmF) : sqlSign .sqlStandard (f :: fs) t = (.ok (), t) := by
  obtain ⟨k, b⟩ := f
  cases b with
  | nil => exact absurd rfl hne
  | cons c r =>
    simp only [sqlSign, if_true]
    rw [if_neg (by rw [h]; simp)]; rfl

theorem sqlSign_minus {f : Field} {fs : List Field} (h : f.2.head? = some 45)
    (h' : (fs.any fun g => hasSign g.2) = false) (t : TmF) :
    sqlSign .sqlStandard (f :: fs) t = (.ok (), forceNegative t) := by
  obtain ⟨k, b⟩ := f
  cases b with
  | nil => cases h
  | cons c r =>
    have hc : c = 45 := by simpa using h
    simp only [sqlSign, if_true]
    rw [if_pos ⟨hc, by rw [h']; simp⟩]; rfl

/-- The sign `-` or `+` in front. -/
theorem signText_sg (neg : Bool) : signText neg = sgBytes (some neg) := by cases neg <;> rfl
/-- The sign `-` in front, if any. -/
theorem minus_sg (neg : Bool) : minus neg = sgBytes (if neg then some true else none) := by cases neg <;> rfl

theorem sgVal_some (v : Int) : sgVal (some (decide (v < 0))) v.natAbs = v :=
  sgVal_eq (by intro h; simp [h]) (by intro h; simp; omega)

theorem ivMin_sign (t : Int) : (0 ≤ t → 0 ≤ ivMin t ∧ 0 ≤ ivHour t) ∧ (t ≤ 0 → ivMin t ≤ 0 ∧ ivHour t ≤ 0) := by
  unfold ivMin ivHour
  have := tdiv_or t 3600000000
  have := tmod_or t 3600000000
  have := tdiv_or (Int.tmod t 3600000000) 60000000
  constructor <;> intro h <;> omega

/-- The clock fields with a sign that fits. -/
theorem clock_signed {t : Int} {sg : Option Bool} (h1 : t < 0 → sg = some true) (h2 : 0 < t → sg ≠ some true) :
    sgVal sg (ivHour t).natAbs = ivHour t ∧ sgVal sg (ivMin t).natAbs = ivMin t := by
  have hs := ivMin_sign t
  refine ⟨sgVal_eq ?_ ?_, sgVal_eq ?_ ?_⟩ <;> intro h
  · exact h1 (by by_contra hc; have := hs.1 (by omega); omega)
  · exact h2 (by by_contra hc; have := hs.2 (by omega); omega)
  · exact h1 (by by_contra hc; have := hs.1 (by omega); omega)
  · exact h2 (by by_contra hc; have := hs.2 (by omega); omega)

theorem sgVal_bounds (sg : Option Bool) (n : Nat) : -(n : Int) ≤ sgVal sg n ∧ sgVal sg n ≤ n := by
  unfold sgVal; split <;> omega

/-- A text with all three signs reads back. -/
theorem sqlMixed_read (u : TokenField) {c : Caches} (hc : c.Ok) {a : Interval} (hm : In32 a.month)
    (hd : a.day.natAbs ≤ 2147483647) (ht : MinutesFit a.time) {x : Bytes}
    (hx : x = signText (a.month < 0) ++ (natText (ivYear a.month).natAbs ++ ([45] ++ (natText (ivMon a.month).natAbs ++
      ([32] ++ (signText (a.day < 0) ++ (natText a.day.natAbs ++
        ([32] ++ (signText (a.time < 0) ++ sqlClockText a.time)))))))))
    (hl : x.length ≤ 128) : Interval.tryFromStr p u c x (-1) .sqlStandard = .ok a := by
  obtain ⟨q1, q2, q3⟩ := minutes_parts ht
  obtain ⟨b1, b2, b3⟩ := clock_bounds a.time
  have hh1 : a.time < 0 → some (decide (a.time < 0)) = some true := by intro h; simp [h]
  have hh2 : 0 < a.time → some (decide (a.time < 0)) ≠ some true := by intro h; simp; omega
  obtain ⟨s1, r1, a1, t1⟩ := sqlClock_runs (p := p) (range := parseRange (-1)) (some (decide (a.time < 0))) q3
  rw [(clock_signed hh1 hh2).1, (clock_signed hh1 hh2).2] at a1
  obtain ⟨s2, r2, a2⟩ := days_runs (sg := some (decide (a.day < 0))) (d := a.day) r1 a1 t1 hd rfl (by decide)
  obtain ⟨s3, r3, a3⟩ := ym_runs (sg := some (decide (a.month < 0))) (m := a.month) r2 a2 hm (sgVal_some _) rfl (by decide)
  rw [sgVal_some] at a3
  have v1 := sgVal_bounds (some (decide (a.time < 0))) (ivMicro a.time)
  have v2 := sgVal_bounds (some (decide (a.time < 0))) (ivSec a.time)
  obtain ⟨s', hdec, ht', hty⟩ := decode_finish (style := .sqlStandard) (t' := _) (t'' := _) r3 a3 (by decide)
    (by simp only; omega) (by simp only [In32]; omega)
    (sqlSign_signed (by rw [ymField_snd]; simp) (by
      simp only [List.any_cons, numField, hasSign, List.head?_cons]
      by_cases h : a.day < 0 <;> simp [h]) _) rfl
  have hsc := ym_scans u (some (decide (a.month < 0))) (natText_digits (ivYear a.month).natAbs) (natText_ne _)
    (natText_digits (ivMon a.month).natAbs) (natText_ne _) (Or.inr ⟨_, rfl⟩)
    (Scans.sgNum (u := u) (some (decide (a.day < 0))) (natText_digits a.day.natAbs) (natText_ne _)
      (Or.inr ⟨_, rfl⟩) (clock_scans u (some (decide (a.time < 0))) a.time (rest := [])
        (natText_digits (ivHour a.time).natAbs) (natText_ne _) (Or.inl rfl) (Scans.nil u)).space).space
  have hxe : x = sgBytes (some (decide (a.month < 0))) ++ (natText (ivYear a.month).natAbs ++ 45 ::
      (natText (ivMon a.month).natAbs ++ 32 :: (sgBytes (some (decide (a.day < 0))) ++ (natText a.day.natAbs ++ 32 ::
        (sgBytes (some (decide (a.time < 0))) ++ (natText (ivHour a.time).natAbs ++ (minSecText a.time ++ []))))))) := by
    rw [hx, signText_sg, signText_sg, signText_sg]
    simp [sqlClockText]
  rw [← hxe] at hsc
  have hscan := hsc.run (by simp) hl (by simp)
  refine interval_of hc hscan hdec ht' hty ?_ hm ?_ ?_ ?_ ?_ ?_ ?_
  · simp only; omega
  · rfl
  · exact q1
  · exact q2
  · simp only; omega
  · simp only; omega
  · exact clock_sum hh1 hh2

/-- A text of years and months only reads back. -/
theorem sqlMonths_read (u : TokenField) {c : Caches} (hc : c.Ok) {m : Int} (hm : In32 m) {x : Bytes}
    (hx : x = minus (m < 0) ++ (natText (ivYear m).natAbs ++ ([45] ++ natText (ivMon m).natAbs)))
    (hl : x.length ≤ 128) : Interval.tryFromStr p u c x (-1) .sqlStandard = .ok ⟨m, 0, 0⟩ := by
  generalize hsg : (if decide (m < 0) then some true else none : Option Bool) = sg
  have hv : sgVal sg m.natAbs = m := by
    rw [← hsg]
    exact sgVal_eq (by intro h; simp [h]) (by intro h; simp; omega)
  obtain ⟨s3, r3, a3⟩ := ym_runs (p := p) (range := parseRange (-1)) (s0 := {}) (s := {}) (t := ({}, 0)) (k := 0)
    (b := false) (sg := sg) (m := m) IvRuns.nil ⟨rfl, rfl, rfl, rfl⟩ hm hv rfl (by decide)
  have hsign : sqlSign .sqlStandard [ymField sg (natText (ivYear m).natAbs) (natText (ivMon m).natAbs)]
      ({ mon := m }, 0) = (.ok (), ({ mon := m }, 0)) := by
    by_cases h : m < 0
    · have hs : sg = some true := by rw [← hsg]; simp [h]
      subst hs
      rw [sqlSign_minus (by simp [ymField]) rfl]
      have : forceNegative ({ mon := m }, 0) = ({ mon := m }, 0) := by
        simp [forceNegative, negPos]; omega
      rw [this]
    · have hs : sg = none := by rw [← hsg]; simp [h]
      subst hs
      obtain ⟨y, r, e, hy, -⟩ := digit_head (r := 45 :: natText (ivMon m).natAbs) (natText_digits (ivYear m).natAbs)
        (natText_ne _)
      refine sqlSign_plain (by simp [ymField]) ?_ _
      simp only [ymField, e]
      rw [isDigit_iff] at hy
      simp; omega
  obtain ⟨s', hdec, ht', hty⟩ := decode_finish (style := .sqlStandard) (t'' := _) r3 a3 (by decide)
    (by simp only; omega) (by simp only [In32]; omega) hsign rfl
  have hsc := ym_scans u sg (natText_digits (ivYear m).natAbs) (natText_ne _)
    (natText_digits (ivMon m).natAbs) (natText_ne _) (Or.inl rfl) (Scans.nil u)
  have hxe : x = sgBytes sg ++ (natText (ivYear m).natAbs ++ 45 :: (natText (ivMon m).natAbs ++ [])) := by
    rw [hx, minus_sg, hsg]; simp
  rw [← hxe] at hsc
  refine interval_of hc (hsc.run (by simp) hl (by simp)) hdec ht' hty ?_ hm ?_ ?_ ?_ ?_ ?_ ?_
  · simp
  · rfl
  all_goals simp [In32]

/-- A text of a clock time only reads back. -/
theorem sqlTime_read (u : TokenField) {c : Caches} (hc : c.Ok) {t : Int} (ht : MinutesFit t) {x : Bytes}
    (hx : x = minus (t < 0) ++ sqlClockText t)
    (hl : x.length ≤ 128) : Interval.tryFromStr p u c x (-1) .sqlStandard = .ok ⟨0, 0, t⟩ := by
  obtain ⟨q1, q2, q3⟩ := minutes_parts ht
  obtain ⟨b1, b2, b3⟩ := clock_bounds t
  generalize hsg : (if decide (t < 0) then some true else none : Option Bool) = sg
  have hh1 : t < 0 → sg = some true := by rw [← hsg]; intro h; simp [h]
  have hh2 : 0 < t → sg ≠ some true := by rw [← hsg]; intro h; simp; omega
  obtain ⟨s1, r1, a1, t1⟩ := sqlClock_runs (p := p) (range := parseRange (-1)) sg q3
  rw [(clock_signed hh1 hh2).1, (clock_signed hh1 hh2).2] at a1
  have v1 := sgVal_bounds sg (ivMicro t)
  have v2 := sgVal_bounds sg (ivSec t)
  have hsign : ∃ t', sqlSign .sqlStandard [timeField sg (sqlClockText t)]
      ({ hour := ivHour t, min := ivMin t, sec := sgVal sg (ivSec t) }, sgVal sg (ivMicro t)) = (.ok (), t') ∧
      t' = ({ hour := ivHour t, min := ivMin t, sec := sgVal sg (ivSec t) }, sgVal sg (ivMicro t)) := by
    by_cases h : t < 0
    · have hs := hh1 h
      subst hs
      rw [sqlSign_minus (by simp [timeField]) rfl]
      refine ⟨_, rfl, ?_⟩
      have := (ivMin_sign t).2 (by omega)
      simp only [forceNegative, negPos, sgVal, if_true]
      repeat rw [if_neg (by omega)]
    · have hs : sg = none := by rw [← hsg]; simp [h]
      subst hs
      obtain ⟨y, r, e, hy, -⟩ := digit_head (r := minSecText t) (natText_digits (ivHour t).natAbs) (natText_ne _)
      refine ⟨_, sqlSign_plain ?_ ?_ _, rfl⟩
      · simp [timeField, sqlClockText, e]
      · simp only [timeField, sqlClockText, e]
        rw [isDigit_iff] at hy
        simp; omega
  obtain ⟨t', hsign, rfl⟩ := hsign
  obtain ⟨s', hdec, ht', hty⟩ := decode_finish (style := .sqlStandard) (t'' := _) r1 a1 (by decide)
    (by simp only; omega) (by simp only [In32]; omega) hsign rfl
  have hsc := clock_scans u sg t (rest := []) (natText_digits (ivHour t).natAbs) (natText_ne _) (Or.inl rfl)
    (Scans.nil u)
  have hxe : x = sgBytes sg ++ (natText (ivHour t).natAbs ++ (minSecText t ++ [])) := by
    rw [hx, minus_sg, hsg]; simp [sqlClockText]
  rw [← hxe] at hsc
  refine interval_of hc (hsc.run (by simp) hl (by simp)) hdec ht' hty ?_ ?_ ?_ ?_ ?_ ?_ ?_ ?_
  · simp
  · simp [In32]
  · rfl
  · exact q1
  · exact q2
  · simp only; omega
  · omega
  · exact clock_sum hh1 hh2

/-- A text of days and a clock time with one sign reads back. -/
theorem sqlDays_read (u : TokenField) {c : Caches} (hc : c.Ok) {d t : Int} (hd : d.natAbs ≤ 2147483647)
    (ht : MinutesFit t) (hsame : 0 ≤ d ∧ 0 ≤ t ∨ d ≤ 0 ∧ t ≤ 0) (hd0 : d ≠ 0) {x : Bytes}
    (hx : x = minus (d < 0) ++ (natText d.natAbs ++ ([32] ++ sqlClockText t)))
    (hl : x.length ≤ 128) : Interval.tryFromStr p u c x (-1) .sqlStandard = .ok ⟨0, d, t⟩ := by
  obtain ⟨q1, q2, q3⟩ := minutes_parts ht
  obtain ⟨b1, b2, b3⟩ := clock_bounds t
  generalize hsg : (if decide (d < 0) then some true else none : Option Bool) = sg
  have hv : sgVal sg d.natAbs = d := by
    rw [← hsg]
    exact sgVal_eq (by intro h; simp [h]) (by intro h; simp; omega)
  have hh1 : t < 0 → sg = some true := by rw [← hsg]; intro h; simp; omega
  have hh2 : 0 < t → sg ≠ some true := by rw [← hsg]; intro h; simp; omega
  obtain ⟨s1, r1, a1, t1⟩ := sqlClock_runs (p := p) (range := parseRange (-1)) none q3
  obtain ⟨s2, r2, a2⟩ := days_runs (sg := sg) (d := d) r1 a1 t1 hd rfl (by decide)
  rw [hv] at a2
  obtain ⟨k1, k2⟩ := clock_signed hh1 hh2
  have hsign : sqlSign .sqlStandard [numField sg (natText d.natAbs), timeField none (sqlClockText t)]
      ({ hour := sgVal none (ivHour t).natAbs, min := sgVal none (ivMin t).natAbs, sec := sgVal none (ivSec t),
         mday := d }, sgVal none (ivMicro t)) =
      (.ok (), ({ hour := ivHour t, min := ivMin t, sec := sgVal sg (ivSec t), mday := d }, sgVal sg (ivMicro t))) := by
    obtain ⟨y, r, e, hy, -⟩ := digit_head (r := minSecText t) (natText_digits (ivHour t).natAbs) (natText_ne _)
    have hns : ([timeField none (sqlClockText t)].any fun g => hasSign g.2) = false := by
      rw [isDigit_iff] at hy
      simp [timeField, sqlClockText, e, hasSign]; omega
    by_cases h : d < 0
    · have hs : sg = some true := by rw [← hsg]; simp [h]
      subst hs
      rw [sqlSign_minus (by simp [numField]) hns]
      have hsg := (ivMin_sign t).2 (by omega)
      have e1 : negPos (sgVal none (ivHour t).natAbs) = ivHour t := by
        simp only [negPos, sgVal, reduceCtorEq, if_false]; split <;> omega
      have e2 : negPos (sgVal none (ivMin t).natAbs) = ivMin t := by
        simp only [negPos, sgVal, reduceCtorEq, if_false]; split <;> omega
      have e3 : ∀ n : Nat, negPos (sgVal none n) = sgVal (some true) n := by
        intro n
        simp only [negPos, sgVal, reduceCtorEq, if_false, if_true]; split <;> omega
      have e4 : negPos d = d := by unfold negPos; split <;> omega
      simp only [forceNegative, e1, e2, e3, e4]
      rfl
    · have hs : sg = none := by rw [← hsg]; simp [h]
      subst hs
      obtain ⟨y, r, e, hy, -⟩ := digit_head (r := []) (natText_digits d.natAbs) (natText_ne _)
      rw [List.append_nil] at e
      rw [sqlSign_plain (by simp [numField, natText_ne]) ?_, k1, k2]
      simp only [numField, e]
      rw [isDigit_iff] at hy
      simp; omega
  have v1 := sgVal_bounds none (ivMicro t)
  have v2 := sgVal_bounds none (ivSec t)
  have v3 := sgVal_bounds sg (ivMicro t)
  have v4 := sgVal_bounds sg (ivSec t)
  obtain ⟨s', hdec, ht', hty⟩ := decode_finish (style := .sqlStandard) (t'' := _) r2 a2 (by decide)
    (by simp only; omega) (by simp only [In32]; omega) hsign rfl
  have hsc := Scans.sgNum (u := u) sg (natText_digits d.natAbs) (natText_ne _)
      (Or.inr ⟨_, rfl⟩) (clock_scans u none t (rest := [])
        (natText_digits (ivHour t).natAbs) (natText_ne _) (Or.inl rfl) (Scans.nil u)).space
  have hxe : x = sgBytes sg ++ (natText d.natAbs ++ 32 :: (sgBytes none ++ (natText (ivHour t).natAbs ++
      (minSecText t ++ [])))) := by
    rw [hx, minus_sg, hsg]; simp [sqlClockText, sgBytes]
  rw [← hxe] at hsc
  refine interval_of hc (hsc.run (by simp) hl (by simp)) hdec ht' hty ?_ ?_ ?_ ?_ ?_ ?_ ?_ ?_
  · simp
  · simp [In32]
  · rfl
  · exact q1
  · exact q2
  · simp only; omega
  · omega
  · exact clock_sum hh1 hh2

/-- A text in the SQL standard style reads back. -/
theorem sqlIv_read (u : TokenField) {c : Caches} (hc : c.Ok) {a : Interval} (hm : In32 a.month)
    (hd : a.day.natAbs ≤ 2147483647) (ht : MinutesFit a.time)
    (hl : (sqlIntervalText a.month a.day a.time).length ≤ 128) :
    Interval.tryFromStr p u c (sqlIntervalText a.month a.day a.time) (-1) .sqlStandard = .ok a := by
  obtain ⟨m, d, t⟩ := a
  simp only at *
  by_cases h0 : m = 0 ∧ d = 0 ∧ t = 0
  · obtain ⟨rfl, rfl, rfl⟩ := h0
    have e : sqlIntervalText 0 0 0 = [48] := by simp [sqlIntervalText]
    rw [e]
    have hs : scan u [48] = .ok [(.number, [48])] := by cases u <;> decide +kernel
    have hdec : decodeInterval p plainLook (parseRange (-1)) .sqlStandard [(.number, [48])] ({}, ()) =
        (.ok (), ({ fMask := SECOND_M, tMask := SECOND_M, ty := 18 }, ())) := by
      cases p <;> decide +kernel
    exact interval_of hc hs hdec rfl rfl rfl (by simp [In32]) rfl (by simp [In32]) (by simp [In32]) (by simp)
      (by simp) rfl
  · by_cases hmix : sqlMixedParts m d t = true
    · refine sqlMixed_read u hc hm hd ht ?_ hl
      unfold sqlIntervalText
      rw [if_neg h0, if_pos hmix]
    · have hmx := hmix
      simp only [sqlMixedParts, Bool.or_eq_true, Bool.and_eq_true, decide_eq_true_eq] at hmix
      have e : sqlIntervalText m d t = minus (m < 0 ∨ d < 0 ∨ t < 0) ++
          if m ≠ 0 then natText (ivYear m).natAbs ++ ([45] ++ natText (ivMon m).natAbs)
          else if d ≠ 0 then natText d.natAbs ++ ([32] ++ sqlClockText t)
          else sqlClockText t := by
        unfold sqlIntervalText
        rw [if_neg h0, if_neg hmx]
      by_cases hm0 : m = 0
      · subst hm0
        by_cases hd0 : d = 0
        · subst hd0
          refine sqlTime_read u hc ht ?_ hl
          rw [e]
          simp
        · refine sqlDays_read u hc hd ht (by omega) hd0 ?_ hl
          rw [e, if_neg (by simp), if_pos hd0]
          have : decide ((0 : Int) < 0 ∨ d < 0 ∨ t < 0) = decide (d < 0) := by
            rw [decide_eq_decide]; omega
          rw [this]
      · obtain ⟨rfl, rfl⟩ : d = 0 ∧ t = 0 := by omega
        refine sqlMonths_read u hc hm ?_ hl
        rw [e, if_pos hm0]
        simp

end Pg
