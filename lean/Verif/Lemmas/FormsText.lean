import Verif.Lemmas.FormsRun

/-! # The texts of all written forms of days and clock times -/

namespace Pg
open Spec

/-- A text that is empty or starts with a space or a letter. -/
def Loose (r : Bytes) : Prop := ∀ x ∈ r.head?, x = 32 ∨ isAlpha x = true

theorem Loose.stops {r : Bytes} (h : Loose r) {P : Nat → Bool} (h1 : P 32 = false)
    (h2 : ∀ x, isAlpha x = true → P x = false) : Stops P r := by
  intro x hx
  rcases h x hx with rfl | h
  · exact h1
  · exact h2 x h

theorem Loose.number {r : Bytes} (h : Loose r) :
    Stops (fun x => isDigit x || x = 58 || x = 45 || x = 47 || x = 46) r := by
  refine h.stops rfl ?_
  intro x hx
  rw [isAlpha_iff] at hx
  simp only [isDigit, Bool.or_eq_false_iff, Bool.and_eq_false_iff, decide_eq_false_iff_not]
  omega

theorem Loose.time {r : Bytes} (h : Loose r) : Stops isTimeB r := by
  refine h.stops rfl ?_
  intro x hx
  rw [isAlpha_iff] at hx
  simp only [isTimeB, isDigit, Bool.or_eq_false_iff, Bool.and_eq_false_iff, decide_eq_false_iff_not]
  omega

theorem Loose.date {r : Bytes} (h : Loose r) {x : Nat} (hx : isSep x) :
    Stops (fun y => y = x || isDigit y) r := by
  refine h.stops (by rcases hx with rfl | rfl | rfl <;> rfl) ?_
  intro y hy
  rw [isAlpha_iff] at hy
  simp only [isDigit, Bool.or_eq_false_iff, Bool.and_eq_false_iff, decide_eq_false_iff_not]
  rcases hx with rfl | rfl | rfl <;> omega

theorem loose_bc (bc : Bool) : Loose (bcMark bc) := by
  cases bc <;> simp [Loose, bcMark]

theorem loose_tail {mer : Option Bool} {t : Bytes} (h : MeridiemText mer t) (bc : Bool) : Loose (t ++ bcMark bc) := by
  cases mer with
  | none =>
    have : t = [] := h
    rw [this]; exact loose_bc bc
  | some pm =>
    obtain ⟨w, hw, rfl | rfl⟩ := h
    · obtain ⟨h1, h2, -⟩ := merWord_letters hw
      cases t with
      | nil => exact absurd rfl h2
      | cons x r =>
        intro y hy
        simp only [List.cons_append, List.head?_cons, Option.mem_def, Option.some.injEq] at hy
        subst hy
        exact Or.inr (h1 _ (by simp))
    · intro y hy
      simp only [List.cons_append, List.head?_cons, Option.mem_def, Option.some.injEq] at hy
      exact Or.inl hy.symm

theorem tail_len {mer : Option Bool} {t : Bytes} (h : MeridiemText mer t) : t.length ≤ 3 := by
  cases mer with
  | none =>
    have : t = [] := h
    rw [this]; simp
  | some pm =>
    obtain ⟨w, hw, rfl | rfl⟩ := h
    · have := (merWord_letters hw).2.2; omega
    · have := (merWord_letters hw).2.2; simp; omega

theorem scans_tail (u : TokenField) {mer : Option Bool} {t : Bytes} (h : MeridiemText mer t) (bc : Bool) :
    Scans u (t ++ bcMark bc) (merFields mer ++ bcFields bc) := by
  cases mer with
  | none =>
    have : t = [] := h
    rw [this]; exact scans_bc u bc
  | some pm =>
    obtain ⟨w, hw, rfl | rfl⟩ := h
    · have := scans_mer u false pm bc hw
      simpa [gapBytes, merFields] using this
    · have := scans_mer u true pm bc hw
      simpa [gapBytes, merFields] using this

/-- A number with a fraction. -/
theorem Scans.numberDot {u : TokenField} {a fs rest : Bytes} {l : List Field} (ha : Digits a) (na : a ≠ [])
    (hf : Digits fs) (nf : fs ≠ [])
    (hr : Stops (fun x => isDigit x || x = 58 || x = 45 || x = 47 || x = 46) rest) (h : Scans u rest l) :
    Scans u (a ++ 46 :: (fs ++ rest)) ((.number, a ++ 46 :: fs) :: l) := by
  have hr1 : Stops isDigit rest := by
    intro x hx
    have := hr x hx
    simp only [Bool.or_eq_false_iff] at this
    exact this.1.1.1.1
  refine Scans.digit ha na ?_ (by simp; omega) (by simp) h
  rw [scanDigit, takeWhile_span (digits_isDigit ha) (Stops.cons rfl),
    dropWhile_span (digits_isDigit ha) (Stops.cons rfl)]
  simp only
  obtain ⟨x, t, e, hx, -⟩ := digit_head (r := rest) hf nf
  have hsd : scanDelim 46 (fs ++ rest) = (.number, 46 :: fs, rest) := by
    rw [e, scanDelim, if_pos hx, ← e, dropWhile_span (digits_isDigit hf) hr1,
      takeWhile_span (digits_isDigit hf) hr1]
    simp only
    rw [if_neg]
    · rfl
    · intro q
      have := hr 46 (by rw [q]; rfl)
      simp at this
  rw [hsd]
  simp

theorem dot_timeB {f : Option Bytes} (h : Digits (f.getD [])) : ∀ b ∈ dotText f, isTimeB b = true := by
  cases f with
  | none => simp [dotText]
  | some fs =>
    intro b hb
    rcases List.mem_cons.1 hb with rfl | hb
    · rfl
    · exact timeB_digits h b hb

theorem scans_clock (u : TokenField) {T : ClockText} (h : T.Ok) {r : Bytes} (hr : Loose r) {l : List Field}
    (hs : Scans u r l) : Scans u (T.bytes ++ r) ((clockField T, T.bytes) :: l) := by
  cases hc : T.colons with
  | true =>
    have ecf : clockField T = .time := by unfold clockField; rw [hc]; rfl
    obtain ⟨hh, t, h1, n1, e, ht⟩ : ∃ hh t, Digits hh ∧ hh ≠ [] ∧ T.bytes = hh ++ 58 :: t ∧
        ∀ b ∈ t, isTimeB b = true := by
      cases T with
      | long hh mm ss f =>
        obtain ⟨k1, k2, k3, k4⟩ := h
        exact ⟨hh, mm ++ 58 :: (ss ++ fracBytes f), k1.1, DigitsOf.ne k1 (by omega),
          by rw [ClockText.bytes, hmsText_bytes]; rfl,
          hms_timeB (f := f) k2.1 k3.1 (by cases f <;> exact k4.1)⟩
      | short hh mm =>
        obtain ⟨k1, k2⟩ := h
        exact ⟨hh, mm, k1.1, DigitsOf.ne k1 (by omega), rfl, timeB_digits k2.1⟩
      | minSec mm ss fs =>
        obtain ⟨k1, k2, k3⟩ := h
        refine ⟨mm, ss ++ 46 :: fs, k1.1, DigitsOf.ne k1 (by omega), rfl, ?_⟩
        intro b hb
        rcases List.mem_append.1 hb with hb | hb
        · exact timeB_digits k2.1 b hb
        · exact dot_timeB (f := some fs) k3.1 b hb
      | six => cases hc
      | four => cases hc
    rw [ecf, e]
    have := Scans.time (u := u) h1 n1 ht hr.time hs
    simpa using this
  | false =>
    have ecf : clockField T = .number := by unfold clockField; rw [hc]; rfl
    have hb := compact_bytes hc
    have hd := compact_digits h
    have hl := compact_len h hc
    have hn : compactDigits T ≠ [] := by intro q; rw [q] at hl; simp at hl
    rw [ecf]
    cases hf : compactFrac T with
    | none =>
      have e : T.bytes = compactDigits T := by rw [hb, hf]; simp [dotText]
      rw [e]
      exact Scans.number hd hn hr.number hs
    | some fs =>
      have e : T.bytes = compactDigits T ++ 46 :: fs := by rw [hb, hf]; rfl
      have hfs := (compact_frac h hf)
      rw [e]
      have hfd : DigitsOf 1 7 fs := by
        cases T with
        | six hh mm ss f => exact h.2.2.2 fs hf
        | four hh mm f => exact h.2.2 fs hf
        | long => cases hc
        | short => cases hc
        | minSec => cases hc
      have := Scans.numberDot (u := u) hd hn hfd.1 (DigitsOf.ne hfd (by omega)) hr.number hs
      simpa using this

theorem clock_head {T : ClockText} (h : T.Ok) (r : Bytes) : ∃ y t, T.bytes ++ r = y :: t ∧ isDigit y = true := by
  obtain ⟨hh, t, h1, n1, e⟩ : ∃ hh t, Digits hh ∧ hh ≠ [] ∧ T.bytes = hh ++ t := by
    cases T with
    | long hh mm ss f => exact ⟨hh, _, h.1.1, DigitsOf.ne h.1 (by omega), by rw [ClockText.bytes, hmsText_bytes]; rfl⟩
    | short hh mm => exact ⟨hh, _, h.1.1, DigitsOf.ne h.1 (by omega), rfl⟩
    | minSec mm ss fs => exact ⟨mm, _, h.1.1, DigitsOf.ne h.1 (by omega), rfl⟩
    | six hh mm ss f => exact ⟨hh, _, h.1.1, DigitsOf.ne h.1 (by omega), rfl⟩
    | four hh mm f => exact ⟨hh, _, h.1.1, DigitsOf.ne h.1 (by omega), rfl⟩
  obtain ⟨y, t', e', hy, -⟩ := digit_head (r := t ++ r) h1 n1
  exact ⟨y, t', by rw [e, List.append_assoc, e'], hy⟩

theorem scans_clk (u : TokenField) {clk : Option (DateSep × ClockText)} (h : ClkOk clk) {r : Bytes} (hr : Loose r)
    {l : List Field} (hs : Scans u r l) : Scans u (clkBytes clk ++ r) (clkFields clk ++ l) := by
  cases clk with
  | none => exact hs
  | some st =>
    obtain ⟨sep, T⟩ := st
    have hc := scans_clock u (T := T) h hr hs
    simp only [clkBytes, clkFields, List.append_assoc, List.singleton_append]
    cases sep with
    | space => exact Scans.space hc
    | letterT =>
      obtain ⟨y, t, e', hy⟩ := clock_head (T := T) h r
      refine Scans.word (w := [84]) (by unfold Letters; decide) (by decide) ?_ ?_ hc
      · rw [e']
        refine Stops.cons ?_
        rw [isDigit_iff] at hy
        rw [Bool.eq_false_iff, ne_eq, isAlpha_iff]; omega
      · rw [e', alphaIsDate]
        have : searchDate (lower [84]) = .ok (some ⟨b!"t", .isotime, 3⟩) := by decide +kernel
        have hne : (y = 45 || y = 47 || y = 46) = false := by
          rw [isDigit_iff] at hy; simp; omega
        simp only [hne, hy, this]
        simp

theorem loose_clk {clk : Option (DateSep × ClockText)} {r : Bytes} (hr : Loose r) : Loose (clkBytes clk ++ r) := by
  cases clk with
  | none => exact hr
  | some st =>
    obtain ⟨sep, T⟩ := st
    cases sep <;> simp [Loose, clkBytes, DateSep.bytes] <;> decide

theorem scans_form (u : TokenField) {D : DayText} (hD : D.Ok) {clk : Option (DateSep × ClockText)} (hT : ClkOk clk)
    {mer : Option Bool} {t : Bytes} (hm : MeridiemText mer t) (bc : Bool) :
    Scans u (D.bytes ++ (clkBytes clk ++ (t ++ bcMark bc)))
      ((dayField D, D.bytes) :: (clkFields clk ++ (merFields mer ++ bcFields bc))) := by
  have h2 := scans_clk u hT (loose_tail hm bc) (scans_tail u hm bc)
  have hl := loose_clk (clk := clk) (loose_tail hm bc)
  cases D with
  | numeric x a b c =>
    obtain ⟨hx, ha, hb, hc, -⟩ := hD
    have := Scans.date (u := u) (show isSep x from hx) ha.1 (DigitsOf.ne ha (by omega)) hb.1 (DigitsOf.ne hb (by omega)) hc.1 (hl.date hx) h2
    simpa [DayText.bytes, numericDate, dayField] using this
  | compact ys mm dd =>
    obtain ⟨h1, h3, h4⟩ := hD
    exact Scans.number (digits_append.2 ⟨digits_append.2 ⟨h1.1, h3.1⟩, h4.1⟩) (by
      have := DigitsOf.ne h1 (by omega)
      simp [DayText.bytes, this]) hl.number h2

theorem day_len {D : DayText} (h : D.Ok) : D.bytes ≠ [] ∧ D.bytes.length ≤ 32 := by
  cases D with
  | numeric x a b c =>
    obtain ⟨-, ha, hb, hc, -⟩ := h
    have := ha.2.2; have := hb.2.2; have := hc.2.2
    exact ⟨by simp [DayText.bytes, numericDate], by simp [DayText.bytes, numericDate]; omega⟩
  | compact ys mm dd =>
    obtain ⟨ha, hb, hc⟩ := h
    have := ha.2.2; have := hb.2.2; have := hc.2.2
    exact ⟨by have := DigitsOf.ne ha (by omega); simp [DayText.bytes, this], by simp [DayText.bytes]; omega⟩

theorem clock_len {T : ClockText} (h : T.Ok) : T.bytes.length ≤ 40 := by
  cases T with
  | long hh mm ss f =>
    obtain ⟨⟨-, -, k1⟩, ⟨-, -, k2⟩, ⟨-, -, k3⟩, ⟨-, -, k4⟩⟩ := h
    rw [ClockText.bytes, hmsText_bytes]
    cases f <;> simp [hmsBytes, fracBytes] at k4 ⊢ <;> omega
  | short hh mm =>
    obtain ⟨⟨-, -, k1⟩, ⟨-, -, k2⟩⟩ := h
    simp [ClockText.bytes]; omega
  | minSec mm ss fs =>
    obtain ⟨⟨-, -, k1⟩, ⟨-, -, k2⟩, ⟨-, -, k3⟩⟩ := h
    simp [ClockText.bytes]; omega
  | six hh mm ss f =>
    obtain ⟨⟨-, -, k1⟩, ⟨-, -, k2⟩, ⟨-, -, k3⟩, k4⟩ := h
    cases f with
    | none => simp [ClockText.bytes, dotText]; omega
    | some fs => have := (k4 fs rfl).2.2; simp [ClockText.bytes, dotText]; omega
  | four hh mm f =>
    obtain ⟨⟨-, -, k1⟩, ⟨-, -, k2⟩, k4⟩ := h
    cases f with
    | none => simp [ClockText.bytes, dotText]; omega
    | some fs => have := (k4 fs rfl).2.2; simp [ClockText.bytes, dotText]; omega

theorem clk_len {clk : Option (DateSep × ClockText)} (h : ClkOk clk) : (clkBytes clk).length ≤ 41 := by
  cases clk with
  | none => simp [clkBytes]
  | some st =>
    obtain ⟨sep, T⟩ := st
    have := clock_len (T := T) h
    cases sep <;> simp [clkBytes, DateSep.bytes] <;> omega

theorem fields_len (mer : Option Bool) (bc : Bool) (clk : Option (DateSep × ClockText)) (f : Field) :
    (f :: (clkFields clk ++ (merFields mer ++ bcFields bc))).length ≤ 25 := by
  rcases clk with - | ⟨sep, T⟩ <;> cases mer <;> cases bc <;>
    simp [clkFields, merFields, bcFields] <;> cases sep <;> simp [DateSep.fields]

theorem scan_form (u : TokenField) {D : DayText} (hD : D.Ok) {clk : Option (DateSep × ClockText)} (hT : ClkOk clk)
    {mer : Option Bool} {t : Bytes} (hm : MeridiemText mer t) (bc : Bool) {text : Bytes}
    (ht : text = D.bytes ++ clkBytes clk ++ t ++ bcMark bc) :
    scan u text = .ok ((dayField D, D.bytes) :: (clkFields clk ++ (merFields mer ++ bcFields bc))) := by
  have e : text = D.bytes ++ (clkBytes clk ++ (t ++ bcMark bc)) := by rw [ht]; simp
  rw [e]
  have hl := day_len hD
  have hb : (bcMark bc).length ≤ 3 := by cases bc <;> simp [bcMark]
  have := clk_len hT
  have := tail_len hm
  exact scan_of (scans_form u hD hT hm bc) (by simp [hl.1]) (by simp; omega) (fields_len _ _ _ _)

theorem clockText_bounds {T : ClockText} (hT : T.Ok) (ha : Accepted T) : T.h ≤ 99 ∧ T.m ≤ 99 ∧ T.s ≤ 99 := by
  cases hc : T.colons with
  | true =>
    obtain ⟨h1, h2, h3, -⟩ := ha hc
    omega
  | false =>
    cases T with
    | six hh mm ss f => exact ⟨pair_lt hT.1, pair_lt hT.2.1, pair_lt hT.2.2.1⟩
    | four hh mm f => exact ⟨pair_lt hT.1, pair_lt hT.2.1, Nat.zero_le _⟩
    | long => cases hc
    | short => cases hc
    | minSec => cases hc

theorem clk_bounds {clk : Option (DateSep × ClockText)} (hT : ClkOk clk) (ha : ClkAccepted clk) {mer : Option Bool}
    {k : Nat} (hk : hourOf mer (clkH clk) = some k) :
    k ≤ 99 ∧ clkM clk ≤ 99 ∧ clkS clk ≤ 99 ∧ 0 ≤ clkUs clk ∧ clkUs clk ≤ 1000000 := by
  have h : clkH clk ≤ 99 ∧ clkM clk ≤ 99 ∧ clkS clk ≤ 99 ∧ 0 ≤ clkUs clk ∧ clkUs clk ≤ 1000000 := by
    cases clk with
    | none => simp [clkH, clkM, clkS, clkUs]
    | some st =>
      obtain ⟨h1, h2, h3⟩ := clockText_bounds (T := st.2) hT ha
      obtain ⟨h4, h5⟩ := clockUs_bounds (T := st.2) hT
      exact ⟨h1, h2, h3, h4, h5⟩
  refine ⟨?_, h.2⟩
  cases mer with
  | none => cases hk; exact h.1
  | some pm => have := hour24_le hk; omega

section
variable {D : DayText} {clk : Option (DateSep × ClockText)} {mer : Option Bool} {t text : Bytes} {cs : Caches}

/-- `Timestamp::try_from_str`. -/
theorem timestamp_form (p : Profile) (u : TokenField) (hcs : cs.Ok) (order : DateOrder) (bc : Bool) (hD : D.Ok)
    (hT : ClkOk clk) (hm : MeridiemText mer t) (ht : text = D.bytes ++ clkBytes clk ++ t ++ bcMark bc) :
    match D.day order bc, hourOf mer (clkH clk) with
    | some day, some k =>
      if ClkAccepted clk ∧ TsRange (instant day ⟨k, clkM clk, clkS clk, clkUs clk⟩) then
        Timestamp.tryFromStr p u cs text (-1) order = .ok ⟨instant day ⟨k, clkM clk, clkS clk, clkUs clk⟩⟩
      else (Timestamp.tryFromStr p u cs text (-1) order).IsErr
    | _, _ => (Timestamp.tryFromStr p u cs text (-1) order).IsErr := by
  have hs := scan_form u hD hT hm bc ht
  have hloop := loop_form p order mer bc hD hT (l := _) rfl
  have herr : ∀ e s, decodeDateTime p plainLook order
      ((dayField D, D.bytes) :: (clkFields clk ++ (merFields mer ++ bcFields bc))) ({}, ()) = (.err e, s) →
      (Timestamp.tryFromStr p u cs text (-1) order).IsErr := by
    rintro e ⟨d, w'⟩ hrun
    rw [timestamp_run p u hcs (-1) order hs hrun]; exact ⟨_, rfl⟩
  by_cases hk : DayFits order D ∧ ClkAccepted clk
  · rw [if_pos hk] at hloop
    obtain ⟨X, hloop, x1, x2, x3, x4, x5, x6, x7, x8, x9, x10, x11, x12, x13, x14⟩ := hloop
    have hrun := run_form p order mer hloop (dayNums_digits order hD) hk.1.1 x1 x2 x3 x4 x5 x6 x7 x8 x9 x10 x11
    rw [← day_eq] at hrun
    cases hday : D.day order bc with
    | none =>
      rw [hday] at hrun
      obtain ⟨s, hrun⟩ := hrun
      exact herr _ _ hrun
    | some day =>
      cases hh : hourOf mer (clkH clk) with
      | none =>
        rw [hday, hh] at hrun
        obtain ⟨s, hrun⟩ := hrun
        exact herr _ _ hrun
      | some k =>
        rw [hday, hh] at hrun
        obtain ⟨hre, d, hrun, e1, e2, e3, e4, e5, e6, e7, e8⟩ := hrun
        simp only
        obtain ⟨b1, b2, b3, b4, b5⟩ := clk_bounds hT hk.2 hh
        have hts := timestamp_ofDec p (t := ⟨k, clkM clk, clkS clk, clkUs clk⟩) e1 e2 e3 e4 e5 (e6.trans x12)
          (e7.trans x13) (e8.trans x14) hre
          (by simp only; omega) (by simp only; omega) (by simp only; omega) ⟨b4, b5⟩
        rw [timestamp_run p u hcs (-1) order hs hrun, Res.bind_ok]
        by_cases hd : TsRange (instant day ⟨k, clkM clk, clkS clk, clkUs clk⟩)
        · rw [if_pos hd] at hts
          rw [if_pos ⟨hk.2, hd⟩, hts, Res.bind_ok, timestamp_noTypmod]
        · rw [if_neg hd] at hts
          rw [if_neg (fun q => hd q.2)]
          obtain ⟨e, he⟩ := hts
          rw [he]; exact ⟨_, rfl⟩
  · rw [if_neg hk] at hloop
    obtain ⟨e, s, hloop⟩ := hloop
    have hrun := dateTime_err p order hloop
    have hE := herr _ _ hrun
    cases hday : D.day order bc with
    | none => exact hE
    | some day =>
      cases hh : hourOf mer (clkH clk) with
      | none => exact hE
      | some k =>
        simp only
        rw [if_neg]
        · exact hE
        · rintro ⟨ha, hts⟩
          obtain ⟨b1, b2, b3, b4, b5⟩ := clk_bounds hT ha hh
          obtain ⟨hr, hb⟩ := day_big hD (fun q => hk ⟨q, ha⟩) day hday
          have := dateRange_of_tsRange (t := ⟨k, clkM clk, clkS clk, clkUs clk⟩)
            (by simp only [Clock.micros]; omega) hts hr
          omega

/-- `Date::try_from_str`. -/
theorem date_form (p : Profile) (u : TokenField) (hcs : cs.Ok) (order : DateOrder) (bc : Bool) (hD : D.Ok)
    (hT : ClkOk clk) (hm : MeridiemText mer t) (ht : text = D.bytes ++ clkBytes clk ++ t ++ bcMark bc) :
    match D.day order bc, hourOf mer (clkH clk) with
    | some day, some _ =>
      if ClkAccepted clk ∧ DateRange (dayNumber day) then
        Date.tryFromStr p u cs text order = .ok ⟨dayNumber day⟩
      else (Date.tryFromStr p u cs text order).IsErr
    | _, _ => (Date.tryFromStr p u cs text order).IsErr := by
  have hs := scan_form u hD hT hm bc ht
  have hloop := loop_form p order mer bc hD hT (l := _) rfl
  have herr : ∀ e s, decodeDateTime p plainLook order
      ((dayField D, D.bytes) :: (clkFields clk ++ (merFields mer ++ bcFields bc))) ({}, ()) = (.err e, s) →
      (Date.tryFromStr p u cs text order).IsErr := by
    rintro e ⟨d, w'⟩ hrun
    rw [date_run p u hcs order hs hrun]; exact ⟨_, rfl⟩
  by_cases hk : DayFits order D ∧ ClkAccepted clk
  · rw [if_pos hk] at hloop
    obtain ⟨X, hloop, x1, x2, x3, x4, x5, x6, x7, x8, x9, x10, x11, x12, x13, x14⟩ := hloop
    have hrun := run_form p order mer hloop (dayNums_digits order hD) hk.1.1 x1 x2 x3 x4 x5 x6 x7 x8 x9 x10 x11
    rw [← day_eq] at hrun
    cases hday : D.day order bc with
    | none =>
      rw [hday] at hrun
      obtain ⟨s, hrun⟩ := hrun
      exact herr _ _ hrun
    | some day =>
      cases hh : hourOf mer (clkH clk) with
      | none =>
        rw [hday, hh] at hrun
        obtain ⟨s, hrun⟩ := hrun
        exact herr _ _ hrun
      | some k =>
        rw [hday, hh] at hrun
        obtain ⟨hre, d, hrun, e1, e2, e3, e4, -⟩ := hrun
        simp only
        rw [date_run p u hcs order hs hrun, Res.bind_ok, date_ofDec p e1 e2 e3 e4 hre]
        by_cases hd : DateRange (dayNumber day)
        · rw [if_pos hd, if_pos ⟨hk.2, hd⟩]
        · rw [if_neg hd, if_neg (fun q => hd q.2)]
          exact ⟨_, rfl⟩
  · rw [if_neg hk] at hloop
    obtain ⟨e, s, hloop⟩ := hloop
    have hrun := dateTime_err p order hloop
    have hE := herr _ _ hrun
    cases hday : D.day order bc with
    | none => exact hE
    | some day =>
      cases hh : hourOf mer (clkH clk) with
      | none => exact hE
      | some k =>
        simp only
        rw [if_neg]
        · exact hE
        · rintro ⟨ha, hts⟩
          obtain ⟨hr, hb⟩ := day_big hD (fun q => hk ⟨q, ha⟩) day hday
          rcases hb with hb | hb
          · exact not_dateRange_of_year hr (by omega) hts
          · exact not_dateRange_of_year' hr (by omega) hts

end

theorem namedDay_real {ys : Bytes} {m d : Int} {bc : Bool} {day : YMD} (hd : namedDay ys m d bc = some day) :
    day.Real := by
  unfold namedDay at hd
  split at hd
  · cases hd
  · split at hd
    · injection hd with hd; subst hd; assumption
    · cases hd

/-! ## Times of day -/

/-- A clock time at the start of a time of day. -/
theorem fieldT_clock {p : Profile} {order : DateOrder} {ft : List TokenField} {T : ClockText} (h : T.Ok)
    (hft : ft.getLast? ≠ some .date) :
    if T.colons = true → T.h ≤ 2147483647 ∧ T.m ≤ 59 ∧ T.s ≤ 60 then
      timeOnlyField p plainLook order ft 0 (clockField T, T.bytes) ({}, ()) = (.ok (), (withClock {} T, ()))
    else ∃ e s, timeOnlyField p plainLook order ft 0 (clockField T, T.bytes) ({}, ()) = (.err e, s) := by
  cases hc : T.colons with
  | true =>
    have ecf : clockField T = .time := by unfold clockField; rw [hc]; rfl
    have hd := decodeTime_clock h hc ⟨0, {}, 0⟩
    rw [ecf]
    unfold timeOnlyField
    simp only [forall_const]
    by_cases hv : T.h ≤ 2147483647 ∧ T.m ≤ 59 ∧ T.s ≤ 60
    · rw [if_pos hv] at hd ⊢
      have e2 : onTime (decodeTime T.bytes INTERVAL_FULL_RANGE) {} =
          (.ok (), { tMask := DTK_TIME_M, tm := { hour := T.h, min := T.m, sec := T.s }, fSec := clockUs T }) := by
        simp only [onTime, St.zoom, hd]
      rw [St.bind_ok (noLook_run e2), noLook_run (addMask_run (by simp))]
      rfl
    · rw [if_neg hv] at hd ⊢
      obtain ⟨e, t, hd⟩ := hd
      have e2 : onTime (decodeTime T.bytes INTERVAL_FULL_RANGE) {} =
          (.err e, { tMask := t.tMask, tm := t.tm, fSec := t.fsec }) := by
        simp only [onTime, St.zoom, hd]
      exact ⟨_, _, St.bind_err (noLook_run e2)⟩
  | false =>
    rw [if_pos (by simp)]
    have ecf : clockField T = .number := by unfold clockField; rw [hc]; rfl
    have hb := compact_bytes hc
    have hdg := compact_digits h
    have hl := compact_len h hc
    rw [ecf]
    have hnf := onNum_run (d := ({} : Dec)) (numberField_clock h hc (m := 0 ||| 14) (by decide) (by decide)
      ⟨0, {}, 0, false⟩ rfl)
    have htok : numberTokenT p plainLook order ft 0 T.bytes ({}, ()) =
        (.ok (), ({ tMask := DTK_TIME_M, tm := { hour := T.h, min := T.m, sec := T.s }, fSec := clockUs T }, ())) := by
      unfold numberTokenT
      rw [St.bind_ok (noLook_run (St.get_run _)), St.ite_run, if_neg (by simp)]
      cases hfr : compactFrac T with
      | none =>
        have e : T.bytes = compactDigits T := by rw [hb, hfr]; simp [dotText]
        have e2 : dotPos T.bytes = T.bytes.length := by rw [e, dotPos_plain hdg]
        rw [St.ite_run, if_neg (by rw [e2]; simp), St.ite_run]
        by_cases h6 : T.bytes.length > 4
        · rw [if_pos h6, St.bind_ok (noLook_run hnf)]
          rfl
        · rw [if_neg h6,
            noLook_run (onNum_run (decodeNumber_clock h hc hfr (m := 0 ||| 14) (by decide) (by decide) order
              ⟨0, {}, 0, false⟩ rfl))]
      | some fs =>
        have e : T.bytes = compactDigits T ++ 46 :: fs := by rw [hb, hfr]; rfl
        have e2 : dotPos T.bytes = (compactDigits T).length := by rw [e, dotPos_dot hdg]
        have e4 : (compactDigits T).length ≠ T.bytes.length := by rw [e]; simp
        rw [St.ite_run, if_pos (by rw [e2]; exact e4), St.ite_run, if_neg (fun q => hft q.2.2), St.ite_run,
          if_pos (by rw [e2]; omega), St.bind_ok (noLook_run hnf)]
        rfl
    simp only [timeOnlyField]
    rw [St.bind_ok htok, noLook_run (addMask_run (by simp))]
    rfl

/-- The decoder of times of day on a clock time. -/
theorem timeOnly_form (p : Profile) (order : DateOrder) (mer : Option Bool) {T : ClockText} (h : T.Ok) :
    if T.colons = true → T.h ≤ 2147483647 ∧ T.m ≤ 59 ∧ T.s ≤ 60 then
      match hourOf mer T.h with
      | some k => ∃ d : Dec, d.tm.hour = k ∧ d.tm.min = T.m ∧ d.tm.sec = T.s ∧ d.fSec = clockUs T ∧
          decodeTimeOnly p plainLook order ((clockField T, T.bytes) :: merFields mer) ({}, ()) =
            (if badTimeOnly d then .err .overflow else .ok (), (d, ()))
      | none => ∃ e s, decodeTimeOnly p plainLook order ((clockField T, T.bytes) :: merFields mer) ({}, ()) = (.err e, s)
    else ∃ e s, decodeTimeOnly p plainLook order ((clockField T, T.bytes) :: merFields mer) ({}, ()) = (.err e, s) := by
  have hf := fieldT_clock (p := p) (order := order)
    (ft := ((clockField T, T.bytes) :: merFields mer).map Prod.fst) h (by
      cases mer
      · cases T <;> simp [merFields, clockField, ClockText.colons]
      · simp [merFields])
  by_cases hv : T.colons = true → T.h ≤ 2147483647 ∧ T.m ≤ 59 ∧ T.s ≤ 60
  swap
  · rw [if_neg hv] at hf ⊢
    obtain ⟨e, s, hf⟩ := hf
    unfold decodeTimeOnly
    rw [timeOnlyLoop]
    exact ⟨_, _, St.bind_err (St.bind_err hf)⟩
  rw [if_pos hv] at hf ⊢
  have hm : (withClock {} T).fMask = 31744 := rfl
  cases mer with
  | none =>
    simp only [hourOf]
    refine ⟨withClock {} T, rfl, rfl, rfl, rfl, ?_⟩
    have hfin : finishFields p (withClock {} T) = (.ok (), withClock {} T) := by
      unfold finishFields
      rw [St.get_bind]
      have : (withClock {} T).tm.validateDate p (withClock {} T).fMask (withClock {} T).isJulian (withClock {} T).is2
          (withClock {} T).bc = .ok (withClock {} T).tm := validate_time p _
      rw [this, St.lift_ok_bind, St.mod_bind, St.get_bind]
      rfl
    unfold decodeTimeOnly
    rw [timeOnlyLoop]
    have hl : (do timeOnlyField p plainLook order (((clockField T, T.bytes) :: merFields none).map Prod.fst) 0
                    (clockField T, T.bytes)
                  timeOnlyLoop p plainLook order (((clockField T, T.bytes) :: merFields none).map Prod.fst)
                    (merFields none) (0 + 1)) ({}, ()) = (.ok (), (withClock {} T, ())) := by
      rw [St.bind_ok hf]; rfl
    rw [St.bind_ok hl, St.bind_ok (noLook_run hfin), St.bind_ok (noLook_run (St.get_run _)), St.ite_run]
    split <;> rfl
  | some pm =>
    have e3 := fun ft => fieldT_mer (p := p) (order := order) (ft := ft) (i := 0 + 1) pm (d := withClock {} T)
      (show (31744 : Nat) &&& 512 = 0 by decide)
    have hfin := finish_mer p pm
      (d := { withClock {} T with mer := merVal pm, tMask := 512, fMask := (withClock {} T).fMask ||| 512 })
      (by
        have h9 : (withClock {} T).fMask ||| 512 = 32256 := by rw [hm]; decide
        simp only [h9]
        exact validate_time_mer p (withClock {} T).tm) rfl (h := T.h) rfl
    have hl : timeOnlyLoop p plainLook order (((clockField T, T.bytes) :: merFields (some pm)).map Prod.fst)
        ((clockField T, T.bytes) :: merFields (some pm)) 0 ({}, ()) =
        (.ok (), ({ withClock {} T with mer := merVal pm, tMask := 512, fMask := (withClock {} T).fMask ||| 512 }, ())) := by
      rw [timeOnlyLoop, St.bind_ok hf]
      simp only [merFields]
      rw [timeOnlyLoop, St.bind_ok (e3 _)]
      rfl
    unfold decodeTimeOnly
    rw [St.bind_ok hl]
    simp only [hourOf]
    cases hk : hour24 pm T.h with
    | none =>
      rw [hk] at hfin
      obtain ⟨s, hfin⟩ := hfin
      exact ⟨_, _, St.bind_err (noLook_run hfin)⟩
    | some k =>
      rw [hk] at hfin
      simp only at hfin ⊢
      refine ⟨{ withClock {} T with mer := merVal pm, tMask := 512, fMask := (withClock {} T).fMask ||| 512,
                                    tm := { (withClock {} T).tm with hour := k } }, rfl, rfl, rfl, rfl, ?_⟩
      rw [St.bind_ok (noLook_run hfin), St.bind_ok (noLook_run (St.get_run _)), St.ite_run]
      split <;> rfl

/-- `Time::try_from_str`. -/
theorem time_form (p : Profile) (u : TokenField) {cs : Caches} (hcs : cs.Ok) (order : DateOrder) {T : ClockText} (h : T.Ok)
    {mer : Option Bool} {t text : Bytes} (hm : MeridiemText mer t) (ht : text = T.bytes ++ t) :
    match hourOf mer T.h with
    | some k =>
      if ClockInput k T.m T.s (clockUs T) then
        Time.tryFromStr p u cs text (-1) order = .ok ⟨clockValue k T.m T.s (clockUs T)⟩
      else (Time.tryFromStr p u cs text (-1) order).IsErr
    | none => (Time.tryFromStr p u cs text (-1) order).IsErr := by
  have hs : scan u text = .ok ((clockField T, T.bytes) :: merFields mer) := by
    have h1 := scans_clock u h (loose_tail hm false) (scans_tail u hm false)
    have e : T.bytes ++ (t ++ bcMark false) = text := by rw [ht]; simp [bcMark]
    have e2 : merFields mer ++ bcFields false = merFields mer := by simp [bcFields]
    rw [e, e2] at h1
    have := clock_len h
    have := tail_len hm
    refine scan_of h1 ?_ (by rw [ht]; simp; omega) (by cases mer <;> simp [merFields])
    obtain ⟨y, r, e, -⟩ := clock_head h t
    rw [ht, e]; simp
  have hrun := timeOnly_form p order mer h
  have herr : ∀ e s, decodeTimeOnly p plainLook order ((clockField T, T.bytes) :: merFields mer) ({}, ()) = (.err e, s) →
      (Time.tryFromStr p u cs text (-1) order).IsErr := by
    rintro e ⟨d, w'⟩ hrun
    rw [time_run p u hcs (-1) order hs hrun]; exact ⟨_, rfl⟩
  have hb := clockUs_bounds h
  by_cases hv : T.colons = true → T.h ≤ 2147483647 ∧ T.m ≤ 59 ∧ T.s ≤ 60
  · rw [if_pos hv] at hrun
    cases hk : hourOf mer T.h with
    | none =>
      rw [hk] at hrun
      obtain ⟨e, s, hrun⟩ := hrun
      exact herr _ _ hrun
    | some k =>
      rw [hk] at hrun
      obtain ⟨d, e1, e2, e3, e4, hrun⟩ := hrun
      simp only
      rw [time_run p u hcs (-1) order hs hrun]
      have hbad := badTimeOnly_iff e1 e2 e3 e4
      by_cases hci : ClockInput k T.m T.s (clockUs T)
      · obtain ⟨c1, c2, c3, c4⟩ := id hci
        rw [if_pos hci, if_neg]
        · rw [Res.bind_ok, e4, time_fromPgtime p (h := k) (m := T.m) (s := T.s) e1 e2 e3
            (by omega) (by omega) (by omega) hb]
          rfl
        · rw [hbad]
          rw [imp_iff_not_or] at c4
          omega
      · rw [if_neg hci, if_pos]
        · exact ⟨_, rfl⟩
        · rw [hbad]
          by_contra hcon
          apply hci
          unfold ClockInput
          rw [imp_iff_not_or]
          omega
  · rw [if_neg hv] at hrun
    obtain ⟨e, s, hrun⟩ := hrun
    have hE := herr _ _ hrun
    cases hk : hourOf mer T.h with
    | none => exact hE
    | some k =>
      simp only
      rw [if_neg]
      · exact hE
      · rintro ⟨c1, c2, c3, -⟩
        apply hv
        intro _
        refine ⟨?_, c2, c3⟩
        cases mer with
        | none => cases hk; omega
        | some pm => have := hour24_in hk; omega

end Pg
