import Verif.Lemmas.StampBack
import Verif.Lemmas.TimeDay

/-! # Reading the text of a timestamp as a date and as a time of day -/

namespace Pg
open Spec

/-- The printed clock time. -/
def printedClock (t : Clock) : ClockText := .long (two t.h) (two t.mi) (two t.s) (fracOf t.us)

theorem digitsOf_two {v : Int} (h : 0 ≤ v ∧ v ≤ 99) : DigitsOf 1 10 (two v) := by
  refine ⟨two_digits v, ?_, le_trans (two_len_le (by omega)) (by omega)⟩
  have := List.length_pos_iff.2 (two_ne v)
  omega

theorem printedClock_ok {t : Clock} (ht : t.Real) : (printedClock t).Ok := by
  unfold Clock.Real at ht
  have e : ∀ f : Option Bytes, f.getD [] = fracDigits f := by rintro (_ | _) <;> rfl
  refine ⟨digitsOf_two (by omega), digitsOf_two (by omega), digitsOf_two (by omega), ?_⟩
  rw [e]
  have := fracOf_len (us := t.us) (by omega) (by omega)
  exact ⟨fracOf_digits t.us, by omega, by omega⟩

theorem printedClock_us {t : Clock} (ht : t.Real) : clockUs (printedClock t) = t.us := by
  unfold Clock.Real at ht
  have e : ∀ f : Option Bytes, f.getD [] = fracDigits f := by rintro (_ | _) <;> rfl
  unfold clockUs printedClock
  simp only [ClockText.frac, e]
  exact fracOf_micros (by omega) (by omega)

theorem printedClock_input {t : Clock} (ht : t.Real) :
    ClockInput (printedClock t).h (printedClock t).m (printedClock t).s (clockUs (printedClock t)) ∧
    clockValue (printedClock t).h (printedClock t).m (printedClock t).s (clockUs (printedClock t)) = t.micros := by
  rw [printedClock_us ht]
  have ht' := ht
  unfold Clock.Real at ht'
  have v1 := two_value (v := t.h) (by omega)
  have v2 := two_value (v := t.mi) (by omega)
  have v3 := two_value (v := t.s) (by omega)
  unfold ClockInput clockValue Clock.micros
  simp only [printedClock, ClockText.h, ClockText.m, ClockText.s]
  rw [v1, v2, v3]
  exact ⟨⟨by omega, by omega, by omega, by omega⟩, rfl⟩

/-- The printed day. -/
def printedDay (st : DateStyle) (o : DateOrder) (c : YMD) : DayText :=
  .numeric (sepOf st) (partsOf st o c).1 (partsOf st o c).2.1 (partsOf st o c).2.2

theorem printedDay_ok (st : DateStyle) (o : DateOrder) {c : YMD} (hr : c.Real) (hy : -4713 ≤ c.y ∧ c.y ≤ 294276) :
    (printedDay st o c).Ok := by
  have hb := real_bounds hr
  have hY : DigitsOf 1 10 (yearText c.y) := by
    refine ⟨yearText_digits _, ?_, le_trans (yearText_len (by omega)) (by omega)⟩
    have := List.length_pos_iff.2 (yearText_ne c.y)
    omega
  have h := partsOf_all (P := DigitsOf 1 10) st o c hY (digitsOf_two (by omega)) (digitsOf_two (by omega))
  refine ⟨?_, h.1, h.2.1, h.2.2, ?_⟩
  · have := sepOf_sep st
    cases st <;> simp [sepOf]
  · rw [partsOf_second st o hr]; omega

theorem timestampText_form {st : DateStyle} (h : st ≠ .postgres) (o : DateOrder) (c : YMD) (t : Clock) :
    timestampText st o c t = (printedDay st o c).bytes ++ clkBytes (some (gapOf st, printedClock t)) ++ [] ++
      bcMark (decide (c.y ≤ 0)) := by
  rw [timestampText_numeric h]
  simp [printedDay, printedClock, DayText.bytes, clkBytes, ClockText.bytes, hmsText_bytes]

theorem stamp_dateRange {c : YMD} {t : Clock} (ht : t.Real) (hts : TsRange (instant c t)) :
    DateRange (dayNumber c) := by
  have hm : 0 ≤ t.micros ∧ t.micros < 86400000000 := by
    unfold Clock.Real at ht; unfold Clock.micros; omega
  rw [tsRange_iff] at hts
  unfold instant dayMicros at hts
  rw [dateRange_iff]
  omega

/-- Reading a printed timestamp in any style but Postgres as a date. -/
theorem stampText_date (p : Profile) (u : TokenField) {cs : Caches} (hcs : cs.Ok) {st : DateStyle} {o : DateOrder}
    (h : st ≠ .postgres) (hro : readsBack st o = true) {c : YMD} {t : Clock} (hr : c.Real) (ht : t.Real)
    (hts : TsRange (instant c t)) :
    Date.tryFromStr p u cs (timestampText st o c t) o = .ok ⟨dayNumber c⟩ := by
  have hy := stamp_year hr ht hts
  have hd : (printedDay st o c).day o (decide (c.y ≤ 0)) = some c := inputDay_parts hro hr
  have hp := date_form (clk := some (gapOf st, printedClock t)) (mer := none) p u hcs o (decide (c.y ≤ 0))
    (printedDay_ok st o hr hy) (printedClock_ok ht) (show MeridiemText none [] from rfl)
    (timestampText_form h o c t)
  rw [hd] at hp
  simp only [hourOf] at hp
  rwa [if_pos ⟨fun _ => (printedClock_input ht).1, stamp_dateRange ht hts⟩] at hp

/-- Reading a printed timestamp with a space between date and clock time as a time of day. -/
theorem stampText_time (p : Profile) (u : TokenField) {cs : Caches} (hcs : cs.Ok) {st : DateStyle} {o : DateOrder}
    (h : st ≠ .postgres) (h' : st ≠ .xsd) (hro : readsBack st o = true) {c : YMD} {t : Clock} (hr : c.Real) (ht : t.Real)
    (hts : TsRange (instant c t)) :
    Time.tryFromStr p u cs (timestampText st o c t) (-1) o = .ok ⟨t.micros⟩ := by
  have hy := stamp_year hr ht hts
  have hb := real_bounds hr
  have hg : gapOf st = .space := by cases st <;> first | rfl | exact absurd rfl h'
  have hf := timestampText_form h o c t
  rw [hg] at hf
  have hp := time_day p u hcs o (decide (c.y ≤ 0)) (mer := none)
    (text := timestampText st o c t) (printedDay_ok st o hr hy) (printedClock_ok ht) rfl
    (show MeridiemText none [] from rfl) (by rw [hf]; simp [printedDay, clkBytes, DayText.bytes, DateSep.bytes])
  rw [inputDay_parts hro hr] at hp
  simp only [hourOf] at hp
  have hfit : DayFits o (.numeric (sepOf st) (partsOf st o c).1 (partsOf st o c).2.1 (partsOf st o c).2.2) := by
    have hk : ∀ v : Int, 0 ≤ v ∧ v ≤ 99 → NumOk (two v) := by
      intro v hv
      refine ⟨le_trans (two_len_le (by omega)) (by omega), ?_⟩
      have := two_value hv.1
      omega
    have hyk : NumOk (yearText c.y) := by
      refine ⟨le_trans (yearText_len (by omega)) (by omega), ?_⟩
      have := yearText_value c.y
      split at this <;> omega
    have := partsOf_all (P := NumOk) st o c hyk (hk _ (by omega)) (hk _ (by omega))
    exact (assign3_all (P := NumOk)).1 this
  rwa [if_pos ⟨hfit, (printedClock_input ht).1⟩, (printedClock_input ht).2] at hp

/-- A printed timestamp with the letter `T` is no time of day. -/
theorem stampText_xsd (p : Profile) (u : TokenField) {cs : Caches} (hcs : cs.Ok) (o o' : DateOrder)
    {c : YMD} {t : Clock} (hr : c.Real) (ht : t.Real) (hts : TsRange (instant c t)) :
    (Time.tryFromStr p u cs (timestampText .xsd o c t) (-1) o').IsErr := by
  have hy := stamp_year hr ht hts
  refine time_day_refused p u hcs o' (decide (c.y ≤ 0)) (mer := none) (t := [])
    (printedDay_ok .xsd o hr hy) (printedClock_ok ht) (sep := .letterT) (Or.inl rfl) rfl ?_
  rw [timestampText_form (by decide) o c t]
  simp [printedDay, clkBytes, DayText.bytes, gapOf]

theorem scan_pg (u : TokenField) (o : DateOrder) {c : YMD} {t : Clock} (hr : c.Real) (ht : t.Real)
    (hts : TsRange (instant c t)) :
    scan u (timestampText .postgres o c t) = .ok (pgFields o c (clockText t)) := by
  have hy := stamp_year hr ht hts
  exact scan_of (scans_pg u o hr (t := t)) (by
      unfold timestampText instantText
      have := (dayName_letters c).2
      cases o <;> simp [this])
    (timestampText_len .postgres o hr ht (by omega))
    (by
      unfold pgFields pgHead bcFields
      cases o <;> cases decide (c.y ≤ 0) <;> simp)

/-- A printed timestamp in the Postgres style is no time of day. -/
theorem stampText_pg_time (p : Profile) (u : TokenField) {cs : Caches} (hcs : cs.Ok) (o o' : DateOrder)
    {c : YMD} {t : Clock} (hr : c.Real) (ht : t.Real) (hts : TsRange (instant c t)) :
    (Time.tryFromStr p u cs (timestampText .postgres o c t) (-1) o').IsErr := by
  have hs := scan_pg u o hr ht hts
  obtain ⟨l, hl⟩ : ∃ l, pgFields o c (clockText t) = (.string, lower (dayNameText c)) :: l := ⟨_, rfl⟩
  obtain ⟨e, h1, h2⟩ := dayName_keyword c
  have hf : ∃ s, timeOnlyField p plainLook o' ((pgFields o c (clockText t)).map Prod.fst) 0
      (.string, lower (dayNameText c)) ({}, ()) = (.err .invalid, s) := by
    have hlook : lookDate (σ := Dec) plainLook 0 (lower (dayNameText c)) ({}, ()) =
        (.ok (e.ty, e.value), ({}, ())) := by
      simp only [lookDate, plainLook, h1]; rfl
    refine ⟨({ tMask := TokenType.mask .dow }, ()), ?_⟩
    unfold timeOnlyField
    refine St.bind_err ?_
    unfold wordTokenT
    rw [St.bind_ok hlook]
    simp only [h2]
    rfl
  obtain ⟨⟨s, w⟩, hf⟩ := hf
  rw [time_run p u hcs (-1) o' hs (timeOnly_first hl hf)]
  exact ⟨_, rfl⟩

/-- Reading a printed timestamp in the Postgres style as a date. -/
theorem stampText_pg_date (p : Profile) (u : TokenField) {cs : Caches} (hcs : cs.Ok) (o : DateOrder)
    {c : YMD} {t : Clock} (hr : c.Real) (ht : t.Real) (hts : TsRange (instant c t)) :
    if c.m = 2 then (Date.tryFromStr p u cs (timestampText .postgres o c t) o).IsErr
    else Date.tryFromStr p u cs (timestampText .postgres o c t) o = .ok ⟨dayNumber c⟩ := by
  have hs := scan_pg u o hr ht hts
  have hy := stamp_year hr ht hts
  by_cases h2 : c.m = 2
  · rw [if_pos h2]
    have hh := loop_pgHead p o ((pgFields o c (clockText t)).map Prod.fst)
      ((.time, clockText t) :: (.number, yearText c.y) :: bcFields (decide (c.y ≤ 0))) hr
    rw [if_pos h2] at hh
    obtain ⟨⟨s, w⟩, hh⟩ := hh
    rw [date_run p u hcs o hs (dateTime_err p o hh)]
    exact ⟨_, rfl⟩
  · rw [if_neg h2]
    obtain ⟨wd, hl⟩ := loop_pg p o ((pgFields o c (clockText t)).map Prod.fst) hr ⟨by omega, hy.2⟩ h2 ht
    have hyv := yearText_value c.y
    have hyl := yearText_len (y := c.y) (by omega)
    have hb := real_bounds hr
    have hrun := run_day p o (m := c.m) (d := c.d) hl (yearText_digits c.y)
      ⟨by omega, by split at hyv <;> omega⟩ rfl rfl (two_value (by omega)) rfl rfl rfl rfl rfl
      (show (97294 : Nat) &&& 14 = 14 by decide) (show (97294 : Nat) &&& 32768 = 0 by decide)
    rw [namedDay_year hr] at hrun
    obtain ⟨-, x, hrun, e1, e2, e3, e4, -⟩ := hrun
    rw [date_run p u hcs o hs hrun, Res.bind_ok, date_ofDec p e1 e2 e3 e4 hr, if_pos (stamp_dateRange ht hts)]

end Pg
