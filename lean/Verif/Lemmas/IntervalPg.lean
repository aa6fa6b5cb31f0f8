import Verif.Lemmas.IntervalPieces

/-! # Reading back intervals printed in the Postgres style -/

namespace Pg
open Spec

variable {p : Profile} {range : Nat}

theorem sgVal_eq {sg : Option Bool} {v : Int} (h1 : v < 0 → sg = some true) (h2 : 0 < v → sg ≠ some true) :
    sgVal sg v.natAbs = v := by
  unfold sgVal
  by_cases h : sg = some true
  · rw [if_pos h]
    have : ¬ 0 < v := fun hc => h2 hc h
    omega
  · rw [if_neg h]
    have : ¬ v < 0 := fun hc => h (h1 hc)
    omega

/-- The field of a clock time with an optional sign. -/
def timeField (sg : Option Bool) (b : Bytes) : Field :=
  match sg with
  | none => (.time, b)
  | some neg => (.tz, (if neg then 45 else 43) :: b)

theorem timeField_snd (sg : Option Bool) (b : Bytes) : (timeField sg b).2 = sgBytes sg ++ b := by
  cases sg <;> rfl

theorem padText_value (w n : Nat) : value (padText w n) = n := by
  unfold padText; rw [value_replicate, natText_value]
theorem padText_ne (w n : Nat) : padText w n ≠ [] := by
  unfold padText
  have := natText_ne n
  simp [this]

theorem minSec_hms (hh : Bytes) (t : Int) :
    hh ++ minSecText t = hmsBytes hh (padText 2 (ivMin t).natAbs) (padText 2 (ivSec t)) (fracOf (ivMicro t)) := by
  unfold minSecText hmsBytes secText
  rw [fracOf_bytes]
  simp

theorem clock_bounds (t : Int) : (ivMin t).natAbs ≤ 59 ∧ ivSec t ≤ 59 ∧ ivMicro t ≤ 999999 := by
  refine ⟨?_, ?_, ?_⟩
  · unfold ivMin
    have a := tmod_or t 3600000000
    have b := tdiv_or (Int.tmod t 3600000000) 60000000
    omega
  · unfold ivSec; omega
  · unfold ivMicro; omega

theorem clock_sum {t : Int} {sg : Option Bool} (h1 : t < 0 → sg = some true) (h2 : 0 < t → sg ≠ some true) :
    ((ivHour t * 60 + ivMin t) * 60 + sgVal sg (ivSec t)) * 1000000 + sgVal sg (ivMicro t) = t := by
  unfold sgVal ivHour ivMin ivSec ivMicro
  have a := tdiv_or t 3600000000
  have a' := tmod_or t 3600000000
  have b := tdiv_or (Int.tmod t 3600000000) 60000000
  by_cases h : sg = some true
  · rw [if_pos h, if_pos h]
    have : ¬ 0 < t := fun hc => h2 hc h
    omega
  · rw [if_neg h, if_neg h]
    have : ¬ t < 0 := fun hc => h (h1 hc)
    omega

/-- Decoding a clock time. -/
theorem clock_step {s : IvS} (sg : Option Bool) (t : Int) {hh : Bytes} (hd : Digits hh) (hn : hh ≠ [])
    (hl : hh.length ≤ 10) (hv : value hh = (ivHour t).natAbs) (hb : (ivHour t).natAbs ≤ 2147483647)
    (hm : DTK_TIME_M &&& s.fMask = 0) :
    IvStep p range (timeField sg (hh ++ minSecText t)) s
      { s with t := ({ s.t.1 with hour := sgVal sg (ivHour t).natAbs, min := sgVal sg (ivMin t).natAbs,
                                  sec := sgVal sg (ivSec t) }, sgVal sg (ivMicro t)),
               tMask := DTK_TIME_M, ty := TokenField.day.value, fMask := s.fMask ||| DTK_TIME_M } := by
  obtain ⟨b1, b2, b3⟩ := clock_bounds t
  have hfl := fracOf_len (us := ivMicro t) (by omega) (by omega)
  have hr : Readable hh (padText 2 (ivMin t).natAbs) (padText 2 (ivSec t)) (fracOf (ivMicro t)) :=
    ⟨hl, padText2_len10 (by omega), padText2_len10 (by omega), by omega⟩
  have hfm := fracOf_micros (us := ivMicro t) (by omega) (by omega)
  rw [minSec_hms]
  cases sg with
  | none =>
    have := step_time (p := p) (range := range) (s := s) hd hn (padText_digits 2 (ivMin t).natAbs) (padText_ne _ _)
      (padText_digits 2 (ivSec t)) (padText_ne _ _) (fracOf_digits (ivMicro t)) hr (by omega)
      (by rw [padText_value]; omega) (by rw [padText_value]; omega) hm
    rw [hfm, hv, padText_value, padText_value] at this
    exact this
  | some neg =>
    have := step_signed_time (p := p) (range := range) (s := s) neg hd hn (padText_digits 2 (ivMin t).natAbs)
      (padText_ne _ _) (padText_digits 2 (ivSec t)) (padText_ne _ _) (fracOf_digits (ivMicro t)) hr (by omega)
      (by rw [padText_value]; omega) (by rw [padText_value]; omega) hm
    rw [hfm, hv, padText_value, padText_value] at this
    cases neg <;> exact this

theorem timeB_signed {b : Nat} (h : isTimeB b = true) : isSignedB b = true := by
  unfold isSignedB
  unfold isTimeB at h
  rw [h]; rfl

/-- Tokenizing a clock time. -/
theorem clock_scans (k : TokenField) (sg : Option Bool) (t : Int) {hh rest : Bytes} {l : List Field} (hd : Digits hh)
    (hn : hh ≠ []) (hr : Gap rest) (h : Scans k rest l) :
    Scans k (sgBytes sg ++ (hh ++ (minSecText t ++ rest))) (timeField sg (hh ++ minSecText t) :: l) := by
  have ht := hms_timeB (padText_digits 2 (ivMin t).natAbs) (padText_digits 2 (ivSec t)) (fracOf_digits (ivMicro t))
  rw [← List.append_assoc hh, minSec_hms]
  cases sg with
  | none =>
    have := Scans.time hd hn ht (hr.stops rfl) h
    simp only [sgBytes, List.nil_append, timeField]
    have e : hmsBytes hh (padText 2 (ivMin t).natAbs) (padText 2 (ivSec t)) (fracOf (ivMicro t)) ++ rest =
        hh ++ 58 :: ((padText 2 (ivMin t).natAbs ++ 58 :: (padText 2 (ivSec t) ++ fracBytes (fracOf (ivMicro t)))) ++
          rest) := by simp [hmsBytes]
    rw [e]; exact this
  | some neg =>
    refine Scans.signed (by cases neg <;> simp) ?_ ?_ (hr.stops rfl) h
    · obtain ⟨x, r, e, hx, -⟩ := digit_head (r := 58 :: (padText 2 (ivMin t).natAbs ++ 58 :: (padText 2 (ivSec t) ++
        fracBytes (fracOf (ivMicro t))))) hd hn
      exact ⟨x, r, e, hx⟩
    · intro b hb
      unfold hmsBytes at hb
      rcases List.mem_append.1 hb with hb | hb
      · exact digits_signed hd b hb
      rcases List.mem_cons.1 hb with rfl | hb
      · rfl
      · exact timeB_signed (ht b hb)

/-- The sign printed in front of a number. -/
def pgSg (prev : Option Bool) (neg : Bool) : Option Bool :=
  if neg then some true else if prev = some true then some false else none

theorem pgLead_sg (prev : Option Bool) (neg : Bool) :
    pgLead prev neg = (if prev = none then [] else [32]) ++ sgBytes (pgSg prev neg) := by
  unfold pgLead pgSg
  cases neg <;> (rcases prev with _ | ⟨_ | _⟩) <;> rfl

theorem pgSg_val (prev : Option Bool) (v : Int) : sgVal (pgSg prev (decide (v < 0))) v.natAbs = v := by
  refine sgVal_eq ?_ ?_
  · intro h; simp [pgSg, h]
  · intro h
    have : ¬ v < 0 := by omega
    simp only [pgSg, this, decide_false, Bool.false_eq_true, if_false]
    split <;> simp

theorem Scans.lead {k : TokenField} {prev : Option Bool} {s : Bytes} {l : List Field} (h : Scans k s l) :
    Scans k ((if prev = none then [] else [32]) ++ s) l := by
  by_cases hp : prev = none
  · rw [if_pos hp]; exact h
  · rw [if_neg hp]; exact h.space

/-- The word of one field. -/
theorem pgWord_scans {u k : TokenField} (hu : PlainU u) {prev : Option Bool} {v : Int} {rest : Bytes}
    {l : List Field} (hr : v ≠ 0 → Gap rest) (h : Scans k rest l) :
    Scans k (pgWord prev v (unitWord u) ++ rest) (pieceFields u (pgSg prev (decide (v < 0))) v ++ l) := by
  by_cases h0 : v = 0
  · simp only [pgWord, pieceFields, if_pos h0, List.nil_append]; exact h
  · have := piece_scans (v := v) (sg := pgSg prev (decide (v < 0))) hu (hr h0) h
    rw [if_neg h0] at this
    have e : pgWord prev v (unitWord u) ++ rest = (if prev = none then [] else [32]) ++
        (sgBytes (pgSg prev (decide (v < 0))) ++ (natText v.natAbs ++ (32 ::
          (plural (unitWord u) (decide (v = 1)) ++ rest)))) := by
      unfold pgWord
      rw [if_neg h0, pgLead_sg]
      simp [plural]
    rw [e]
    exact Scans.lead this

theorem pgWord_gap {w : List Nat} {prev : Option Bool} {v : Int} {rest : Bytes} (hp : prev ≠ none)
    (hr : Gap rest) : Gap (pgWord prev v w ++ rest) := by
  unfold pgWord
  by_cases h0 : v = 0
  · rw [if_pos h0]; exact hr
  · rw [if_neg h0]
    unfold pgLead
    rw [if_neg hp]
    simp only [List.append_assoc, List.cons_append]
    exact Or.inr ⟨_, rfl⟩

theorem pieceFields_len (u : TokenField) (sg : Option Bool) (v : Int) : (pieceFields u sg v).length ≤ 2 := by
  unfold pieceFields; split <;> simp

theorem Scans.run {u : TokenField} {s : Bytes} {l : List Field} (h : Scans u s l) (hne : l ≠ [])
    (hl : s.length ≤ 128) (hn : l.length ≤ 25) : scan u s = .ok l := by
  refine scan_of h ?_ hl hn
  intro hs
  subst hs
  have e := h 1 0 0 (by simp) (by simp) (by omega)
  have e' : scanLoop u 1 [] 0 0 = .ok [] := rfl
  rw [e'] at e
  exact hne (Res.ok.inj e).symm

/-- The fields of a printed clock time; none if it is left out. -/
def pgTimeFields (prev : Option Bool) (t : Int) : List Field :=
  if prev = none ∨ t ≠ 0 then
    [timeField (pgSg prev (decide (t < 0))) (padText 2 (ivHour t).natAbs ++ minSecText t)]
  else []

/-- The text of the clock time. -/
def pgTimeText (prev : Option Bool) (t : Int) : Bytes :=
  if prev = none ∨ t ≠ 0 then pgLead prev (t < 0) ++ (padText 2 (ivHour t).natAbs ++ minSecText t) else []

theorem pgTime_gap {prev : Option Bool} (hp : prev ≠ none) (t : Int) : Gap (pgTimeText prev t) := by
  unfold pgTimeText
  split
  · unfold pgLead
    rw [if_neg hp]
    simp only [List.append_assoc, List.cons_append]
    exact Or.inr ⟨_, rfl⟩
  · exact Or.inl rfl

theorem pgTime_scans (k : TokenField) (prev : Option Bool) (t : Int) :
    Scans k (pgTimeText prev t) (pgTimeFields prev t) := by
  unfold pgTimeText pgTimeFields
  by_cases h : prev = none ∨ t ≠ 0
  · rw [if_pos h, if_pos h, pgLead_sg, List.append_assoc]
    have := clock_scans k (pgSg prev (decide (t < 0))) t (rest := []) (padText_digits 2 (ivHour t).natAbs)
      (padText_ne _ _) (Or.inl rfl) (Scans.nil k)
    rw [List.append_nil] at this
    exact Scans.lead this
  · rw [if_neg h, if_neg h]; exact Scans.nil k

/-- The clock fields of `t`. -/
def clockTm (t : Int) (sg : Option Bool) : PgTime :=
  { hour := ivHour t, min := ivMin t, sec := sgVal sg (ivSec t) }

theorem pgTime_runs {prev : Option Bool} {t : Int} (hb : (ivHour t).natAbs ≤ 2147483647) :
    ∃ s, IvRuns p range (pgTimeFields prev t) {} s ∧
      IvAt s (clockTm t (pgSg prev (decide (t < 0))), sgVal (pgSg prev (decide (t < 0))) (ivMicro t))
        (if prev = none ∨ t ≠ 0 then DTK_TIME_M else 0) false := by
  unfold pgTimeFields
  by_cases h : prev = none ∨ t ≠ 0
  · rw [if_pos h, if_pos h]
    have h1 : t < 0 → pgSg prev (decide (t < 0)) = some true := by intro h; simp [pgSg, h]
    have h2 : 0 < t → pgSg prev (decide (t < 0)) ≠ some true := by
      intro h
      have : ¬ t < 0 := by omega
      simp only [pgSg, this, decide_false, Bool.false_eq_true, if_false]
      split <;> simp
    have st := clock_step (p := p) (range := range) (s := {}) (pgSg prev (decide (t < 0))) t
      (padText_digits 2 (ivHour t).natAbs) (padText_ne _ _) (padText2_len10 (by omega)) (padText_value _ _) hb
      (by decide)
    rw [sgVal_eq (v := ivHour t) ?_ ?_, sgVal_eq (v := ivMin t) ?_ ?_] at st
    · exact ⟨_, IvRuns.nil.cons st, rfl, by simp, rfl, rfl⟩
    all_goals
      intro hx
      first
        | (refine h1 ?_
           unfold ivHour at hx
           have := tdiv_or t 3600000000
           omega)
        | (refine h2 ?_
           unfold ivHour at hx
           have := tdiv_or t 3600000000
           omega)
        | (refine h1 ?_
           unfold ivMin at hx
           have := tmod_or t 3600000000
           have := tdiv_or (Int.tmod t 3600000000) 60000000
           omega)
        | (refine h2 ?_
           unfold ivMin at hx
           have := tmod_or t 3600000000
           have := tdiv_or (Int.tmod t 3600000000) 60000000
           omega)
  · rw [if_neg h, if_neg h]
    have ht : t = 0 := by tauto
    subst ht
    refine ⟨_, IvRuns.nil, ?_, rfl, rfl, rfl⟩
    have e : pgSg prev (decide ((0 : Int) < 0)) ≠ some true := by
      simp only [pgSg, show ¬ ((0 : Int) < 0) by omega, decide_false, Bool.false_eq_true, if_false]
      split <;> simp
    unfold clockTm sgVal
    rw [if_neg e, if_neg e]
    rfl

/-- Fields of a text in the Postgres style. -/
def pgIvFields (m d t : Int) : List Field :=
  let s1 := pgNext none (ivYear m)
  let s2 := pgNext s1 (ivMon m)
  let s3 := pgNext s2 d
  pieceFields .year (pgSg none (decide (ivYear m < 0))) (ivYear m) ++
    (pieceFields .month (pgSg s1 (decide (ivMon m < 0))) (ivMon m) ++
      (pieceFields .day (pgSg s2 (decide (d < 0))) d ++ pgTimeFields s3 t))

theorem pgNext_ne {prev : Option Bool} {v : Int} (h : prev ≠ none ∨ v ≠ 0) : pgNext prev v ≠ none := by
  unfold pgNext
  by_cases h0 : v = 0
  · rw [if_pos h0]; tauto
  · rw [if_neg h0]; simp

theorem pgIv_scans (k : TokenField) (m d t : Int) : Scans k (pgIntervalText m d t) (pgIvFields m d t) := by
  have e : pgIntervalText m d t = pgWord none (ivYear m) (unitWord .year) ++
      (pgWord (pgNext none (ivYear m)) (ivMon m) (unitWord .month) ++
        (pgWord (pgNext (pgNext none (ivYear m)) (ivMon m)) d (unitWord .day) ++
          pgTimeText (pgNext (pgNext (pgNext none (ivYear m)) (ivMon m)) d) t)) := rfl
  rw [e]
  unfold pgIvFields
  refine pgWord_scans (by simp [PlainU]) ?_ (pgWord_scans (by simp [PlainU]) ?_ (pgWord_scans (by simp [PlainU]) ?_
    (pgTime_scans k _ t)))
  · intro h
    exact pgWord_gap (pgNext_ne (Or.inr h)) (pgWord_gap (pgNext_ne (Or.inl (pgNext_ne (Or.inr h))))
      (pgTime_gap (pgNext_ne (Or.inl (pgNext_ne (Or.inl (pgNext_ne (Or.inr h)))))) t))
  · intro h
    exact pgWord_gap (pgNext_ne (Or.inr h)) (pgTime_gap (pgNext_ne (Or.inl (pgNext_ne (Or.inr h)))) t)
  · intro h
    exact pgTime_gap (pgNext_ne (Or.inr h)) t

theorem month_sum (m : Int) : ivYear m * 12 + ivMon m = m := by
  unfold ivYear ivMon
  have := tdiv_or m 12
  have := tmod_or m 12
  omega

/-- The minutes fit 32 bits. -/
def MinutesFit (t : Int) : Prop := In32 (Int.tdiv t 60000000)

theorem minutes_parts {t : Int} (h : MinutesFit t) :
    In32 (ivHour t * 60) ∧ In32 (ivHour t * 60 + ivMin t) ∧ (ivHour t).natAbs ≤ 2147483647 := by
  unfold MinutesFit In32 at *
  unfold ivHour ivMin
  have a := tdiv_or t 3600000000
  have a' := tmod_or t 3600000000
  have b := tdiv_or (Int.tmod t 3600000000) 60000000
  have c := tdiv_or t 60000000
  omega

/-- A text in the Postgres style reads back. -/
theorem pgIv_read (u : TokenField) {c : Caches} (hc : c.Ok) {a : Interval} (hm : In32 a.month)
    (hd : a.day.natAbs ≤ 2147483647) (ht : MinutesFit a.time) (hl : (pgIntervalText a.month a.day a.time).length ≤ 128)
    {style : IntervalStyle} (hst : style ≠ .sqlStandard) :
    Interval.tryFromStr p u c (pgIntervalText a.month a.day a.time) (-1) style = .ok a := by
  obtain ⟨q1, q2, q3⟩ := minutes_parts ht
  have hy : (ivYear a.month).natAbs ≤ 2147483647 := by
    unfold ivYear In32 at *
    have := tdiv_or a.month 12
    omega
  have hmo : (ivMon a.month).natAbs ≤ 11 := by
    unfold ivMon
    have := tmod_or a.month 12
    omega
  have hsum := month_sum a.month
  generalize hs1 : pgNext none (ivYear a.month) = s1
  generalize hs2 : pgNext s1 (ivMon a.month) = s2
  generalize hs3 : pgNext s2 a.day = s3
  generalize hsg : pgSg s3 (decide (a.time < 0)) = sg
  obtain ⟨r0, h0, a0⟩ := pgTime_runs (p := p) (range := parseRange (-1)) (prev := s3) q3
  rw [hsg] at a0
  generalize hm0 : (if s3 = none ∨ a.time ≠ 0 then DTK_TIME_M else 0) = m0 at a0
  have hm0' : m0 = 0 ∨ m0 = DTK_TIME_M := by rw [← hm0]; split <;> simp
  obtain ⟨r1, h1, a1⟩ := piece_runs (u := .day) (by simp [PlainU]) (sg := pgSg s2 (decide (a.day < 0))) (v := a.day)
    h0 a0 hd rfl (by rcases hm0' with rfl | rfl <;> decide)
  generalize hm1 : (if a.day = 0 then m0 else m0 ||| bitU .day) = m1 at a1
  have hm1' : bitU .month &&& m1 = 0 ∧ bitU .year &&& m1 = 0 := by
    rw [← hm1]; rcases hm0' with rfl | rfl <;> split <;> decide
  obtain ⟨r2, h2, a2⟩ := piece_runs (u := .month) (by simp [PlainU]) (sg := pgSg s1 (decide (ivMon a.month < 0)))
    (v := ivMon a.month) h1 a1 (by omega) rfl hm1'.1
  generalize hm2 : (if ivMon a.month = 0 then m1 else m1 ||| bitU .month) = m2 at a2
  have hm2' : bitU .year &&& m2 = 0 := by
    rw [← hm2, ← hm1]; rcases hm0' with rfl | rfl <;> split <;> split <;> decide
  obtain ⟨r3, h3, a3⟩ := piece_runs (u := .year) (by simp [PlainU]) (sg := pgSg none (decide (ivYear a.month < 0)))
    (v := ivYear a.month) h2 a2 hy rfl hm2'
  rw [pgSg_val, pgSg_val, pgSg_val] at a3
  have hfields : pgIvFields a.month a.day a.time = pieceFields .year (pgSg none (decide (ivYear a.month < 0)))
      (ivYear a.month) ++ (pieceFields .month (pgSg s1 (decide (ivMon a.month < 0))) (ivMon a.month) ++
      (pieceFields .day (pgSg s2 (decide (a.day < 0))) a.day ++ pgTimeFields s3 a.time)) := by
    unfold pgIvFields
    simp only [hs1, hs2, hs3]
  have hmask : (if ivYear a.month = 0 then m2 else m2 ||| bitU .year) ≠ 0 := by
    by_cases c1 : ivYear a.month = 0
    · rw [if_pos c1, ← hm2]
      by_cases c2 : ivMon a.month = 0
      · rw [if_pos c2, ← hm1]
        by_cases c3 : a.day = 0
        · rw [if_pos c3, ← hm0]
          have : s3 = none := by
            rw [← hs3, ← hs2, ← hs1]
            simp [pgNext, c1, c2, c3]
          rw [if_pos (Or.inl this)]
          decide
        · rw [if_neg c3]
          rcases hm0' with rfl | rfl <;> decide
      · rw [if_neg c2, ← hm1]
        rcases hm0' with rfl | rfl <;> split <;> decide
    · rw [if_neg c1, ← hm2, ← hm1]
      rcases hm0' with rfl | rfl <;> split <;> split <;> decide
  rw [← hfields] at h3
  obtain ⟨b1, b2, b3⟩ := clock_bounds a.time
  have hsv : ∀ n : Nat, -(n : Int) ≤ sgVal sg n ∧ sgVal sg n ≤ n := by
    intro n; unfold sgVal; split <;> omega
  have hv1 := hsv (ivMicro a.time)
  have hv2 := hsv (ivSec a.time)
  have hne : pgIvFields a.month a.day a.time ≠ [] := by
    intro hc
    rw [hc] at h3
    have := h3 0
    simp only [intervalLoop, St.pure_run, Prod.mk.injEq, true_and, and_true] at this
    rw [← this] at a3
    exact hmask a3.2.1.symm
  obtain ⟨s', hdec, ht', hty⟩ := decode_finish (style := style) (t' := _) (t'' := _) h3 a3 hmask (by simp only; omega)
    (by simp only [bump, clockTm, In32]; omega) (sqlSign_other hst hne _) rfl
  have hh1 : a.time < 0 → sg = some true := by rw [← hsg]; intro h; simp [pgSg, h]
  have hh2 : 0 < a.time → sg ≠ some true := by
    rw [← hsg]
    intro h
    have : ¬ a.time < 0 := by omega
    simp only [pgSg, this, decide_false, Bool.false_eq_true, if_false]
    split <;> simp
  have hlen : (pgIvFields a.month a.day a.time).length ≤ 25 := by
    rw [hfields]
    have l1 := pieceFields_len .year (pgSg none (decide (ivYear a.month < 0))) (ivYear a.month)
    have l2 := pieceFields_len .month (pgSg s1 (decide (ivMon a.month < 0))) (ivMon a.month)
    have l3 := pieceFields_len .day (pgSg s2 (decide (a.day < 0))) a.day
    have l4 : (pgTimeFields s3 a.time).length ≤ 1 := by unfold pgTimeFields; split <;> simp
    simp only [List.length_append]
    omega
  have hscan := (pgIv_scans u a.month a.day a.time).run hne hl hlen
  refine interval_of hc hscan hdec ht' hty ?_ hm ?_ ?_ ?_ ?_ ?_ ?_
  · simp only [bump, clockTm]; omega
  · simp only [bump, clockTm]; omega
  · exact q1
  · exact q2
  · simp only [bump, clockTm]; omega
  · simp only; omega
  · exact clock_sum hh1 hh2

end Pg
