import Verif.Lemmas.LabelClock

/-! # Parsing clock times with labels -/

namespace Pg
open Spec

/-- What stops a number. -/
def NumStop (r : Bytes) : Prop := Stops (fun x => isDigit x || x = 58 || x = 45 || x = 47 || x = 46) r

theorem part_letters {m : Bool} {P : ClockPart} (hP : P.Ok m) :
    ∃ e, searchDate (lower P.word) = .ok (some e) ∧ Letters P.word ∧ P.word ≠ [] ∧ P.word.length ≤ 2 := by
  obtain ⟨s, f, hu, hw, hf⟩ := part_word hP
  obtain ⟨⟨e, h1, h2, h3⟩, k1, k2, -⟩ := labelUnit_entry hu hw
  refine ⟨e, h1, k1, k2, ?_⟩
  rcases hP.1 with h | ⟨-, -, h⟩
  · have := congrArg List.length h
    simp only [List.length_map] at this
    rw [this]
    cases P.label <;> simp [ClockLabel.word]
  · have := congrArg List.length h
    simp only [List.length_map] at this
    rw [this]
    simp

theorem scans_number {u : TokenField} {m : Bool} {P : ClockPart} (hP : P.Ok m) {rest : Bytes} {l : List Field}
    (hr : NumStop rest) (h : Scans u rest l) :
    Scans u (P.digits ++ (dotText P.frac ++ rest)) ((.number, partNumber P) :: l) := by
  have nd := DigitsOf.ne hP.2.2.1 (by omega)
  unfold partNumber
  cases hf : P.frac with
  | none =>
    have := Scans.number hP.2.2.1.1 nd hr h
    simpa [dotText] using this
  | some fs =>
    have hd := (hP.2.2.2 _ hf).2
    have := Scans.numberDot hP.2.2.1.1 nd hd.1 (DigitsOf.ne hd (by omega)) hr h
    simpa [dotText] using this

theorem scans_onePart {u : TokenField} {m : Bool} {P : ClockPart} (hP : P.Ok m) (hl : Beside P.lead) {rest : Bytes}
    {l : List Field} (hr : NumStop rest) (h : Scans u rest l) :
    Scans u (P.bytes ++ rest) (clockPartFields P ++ l) := by
  obtain ⟨e, h1, k1, k2, -⟩ := part_letters hP
  have nd := DigitsOf.ne hP.2.2.1 (by omega)
  have s1 := scans_number hP hr h
  have s2 := Scans.nameDigit k1 k2 h1 hP.2.1 hP.2.2.1.1 nd (by simp) s1
  have s3 := Scans.beside hl (letter_punct k1 k2) (by simp) s2
  have e : P.bytes ++ rest = P.lead ++ (P.word ++ (P.gap ++ (P.digits ++ (dotText P.frac ++ rest)))) := by
    simp [ClockPart.bytes]
  rw [e]
  exact s3

theorem part_stop {m : Bool} {P : ClockPart} (hP : P.Ok m) (hl : Beside P.lead) (rest : Bytes) :
    NumStop (P.bytes ++ rest) := by
  obtain ⟨e, h1, k1, k2, -⟩ := part_letters hP
  rw [ClockPart.bytes, List.append_assoc]
  rcases hl with hl | hl | hl | hl <;> rw [hl]
  · rw [List.nil_append, List.append_assoc]
    exact (loose_letters k1 k2).number
  all_goals exact Stops.cons rfl

theorem scans_labelClock {u : TokenField} {rest : Bytes} {l : List Field} (hr : NumStop rest) (h : Scans u rest l) {day : Bool} :
    ∀ {parts : List ClockPart} {hour : Bool}, PartsOk day hour parts → (∀ P ∈ parts.head?, Beside P.lead) →
    NumStop (labelClock parts ++ rest) ∧ Scans u (labelClock parts ++ rest) (labelClockFields parts ++ l) := by
  intro parts
  induction parts with
  | nil => intro hour _ _; exact ⟨hr, h⟩
  | cons P r ih =>
    intro hour hok hb
    obtain ⟨hP, hq, hok'⟩ := hok
    have hl := hb P (by simp)
    obtain ⟨i1, i2⟩ := ih hok' (fun Q hQ => (hq Q (List.mem_of_mem_head? hQ)).1)
    have e : labelClock (P :: r) ++ rest = P.bytes ++ (labelClock r ++ rest) := by simp [labelClock]
    have e2 : labelClockFields (P :: r) ++ l = clockPartFields P ++ (labelClockFields r ++ l) := by simp [labelClockFields]
    rw [e, e2]
    exact ⟨part_stop hP hl _, scans_onePart hP hl i1 i2⟩

theorem first_beside {parts : List ClockPart} (h : FirstOk parts) : ∀ P ∈ parts.head?, Beside P.lead := by
  intro P hP
  rcases h P hP with h | h
  · exact Or.inl h
  · exact Or.inr (Or.inl h)

theorem loose_parts {parts : List ClockPart} {day hour : Bool} (hok : PartsOk day hour parts) (hf : FirstOk parts)
    {rest : Bytes} (hr : Loose rest) : Loose (labelClock parts ++ rest) := by
  cases parts with
  | nil => exact hr
  | cons P r =>
    obtain ⟨e, h1, k1, k2, -⟩ := part_letters hok.1
    have e : labelClock (P :: r) ++ rest = P.lead ++ (P.word ++ (P.gap ++ (P.digits ++ dotText P.frac) ++
      (labelClock r ++ rest))) := by simp [labelClock, ClockPart.bytes]
    rw [e]
    rcases hf P (by simp) with hl | hl <;> rw [hl]
    · rw [List.nil_append]; exact loose_letters k1 k2
    · intro y hy
      simp only [List.cons_append, List.nil_append, List.head?_cons, Option.mem_def, Option.some.injEq] at hy
      exact Or.inl hy.symm

/-- There are at most three parts. -/
theorem parts_short {parts : List ClockPart} {day : Bool} : ∀ {hour : Bool}, PartsOk day hour parts →
    (parts.map ClockPart.label).Nodup := by
  induction parts with
  | nil => intro _ _; simp
  | cons P r ih =>
    intro hour hok
    obtain ⟨hP, hq, hok'⟩ := hok
    rw [List.map_cons, List.nodup_cons]
    refine ⟨?_, ih hok'⟩
    intro hm
    obtain ⟨Q, hQ, e⟩ := List.mem_map.1 hm
    exact (hq Q hQ).2 e

theorem nodup_labels {ls : List ClockLabel} (h : ls.Nodup) : ls.length ≤ 3 := by
  have hs : ls ⊆ [.hour, .minute, .second] := by
    intro l _
    cases l <;> simp
  exact (List.Nodup.subperm h hs).length_le

theorem parts_len {parts : List ClockPart} {day hour : Bool} (hok : PartsOk day hour parts) (hf : FirstOk parts) :
    (labelClock parts).length ≤ 72 ∧ (labelClockFields parts).length ≤ 6 := by
  have h3 := nodup_labels (parts_short hok)
  rw [List.length_map] at h3
  have key : ∀ {ps : List ClockPart} {hour : Bool}, PartsOk day hour ps → (∀ P ∈ ps.head?, Beside P.lead) →
      (labelClock ps).length ≤ 24 * ps.length ∧ (labelClockFields ps).length = 2 * ps.length := by
    intro ps
    induction ps with
    | nil => intro _ _ _; simp [labelClock, labelClockFields]
    | cons P r ih =>
      intro hour hok hb
      obtain ⟨hP, hq, hok'⟩ := hok
      obtain ⟨i1, i2⟩ := ih hok' (fun Q hQ => (hq Q (List.mem_of_mem_head? hQ)).1)
      obtain ⟨e, -, -, -, hw⟩ := part_letters hP
      have h1 := beside_len (hb P (by simp))
      have h2 := beside_len hP.2.1
      have h3 := hP.2.2.1.2.2
      have h4 : (dotText P.frac).length ≤ 8 := by
        cases hf : P.frac with
        | none => simp [dotText]
        | some fs => have := (hP.2.2.2 _ hf).2.2.2; simp [dotText]; omega
      have e1 : labelClock (P :: r) = P.bytes ++ labelClock r := by simp [labelClock]
      have e2 : labelClockFields (P :: r) = clockPartFields P ++ labelClockFields r := by simp [labelClockFields]
      rw [e1, e2]
      simp only [List.length_append, ClockPart.bytes, clockPartFields, List.length_cons, List.length_nil]
      omega
  obtain ⟨k1, k2⟩ := key hok (first_beside hf)
  omega

/-- Scanning a day, a clock time with labels, and the marks. -/
theorem scan_labelClock (u : TokenField) {D : Bytes} {F : List Field} (n : D ≠ []) (hl : D.length ≤ 48) (hF : F.length ≤ 12)
    (hS : ∀ {r : Bytes} {l : List Field}, Loose r → Scans u r l → Scans u (D ++ r) (F ++ l))
    {parts : List ClockPart} {day hour : Bool} (hok : PartsOk day hour parts) (hf : FirstOk parts)
    {mer : Option Bool} {t : Bytes} (hm : MeridiemText mer t) (bc : Bool) {text : Bytes}
    (ht : text = D ++ labelClock parts ++ t ++ bcMark bc) :
    scan u text = .ok (F ++ (labelClockFields parts ++ (merFields mer ++ bcFields bc))) := by
  have e : text = D ++ (labelClock parts ++ (t ++ bcMark bc)) := by rw [ht]; simp
  rw [e]
  have hb : (bcMark bc).length ≤ 3 := by cases bc <;> simp [bcMark]
  have := parts_len hok hf
  have := tail_len hm
  have hlen : (merFields mer ++ bcFields bc).length ≤ 2 := by
    cases mer <;> cases bc <;> simp [merFields, bcFields]
  have hs := scans_labelClock (loose_tail hm bc).number (scans_tail u hm bc) hok (first_beside hf)
  refine scan_of (hS (loose_parts hok hf (loose_tail hm bc)) hs.2) (by simp [n]) ?_ ?_
  · simp only [List.length_append]; omega
  · rw [List.length_append, List.length_append]; omega

section
variable {p : Profile} {order : DateOrder} {F : List Field} {fits : Prop} {day : Bool → Option YMD} {bc : Bool}

/-- The microseconds of a clock time with labels. -/
def labelUs (parts : List ClockPart) : Int := fracMicros (some (clockFrac parts))

theorem frac_digits {parts : List ClockPart} {day hour : Bool} (hok : PartsOk day hour parts) :
    Digits (clockFrac parts) ∧ (clockFrac parts).length ≤ 7 := by
  have hmem : ∀ {ps : List ClockPart} {hour : Bool}, PartsOk day hour ps → ∀ P ∈ ps, ∃ m, P.Ok m := by
    intro ps
    induction ps with
    | nil => intro _ _ P hP; simp at hP
    | cons Q r ih =>
      intro hour hok P hP
      rcases List.mem_cons.1 hP with rfl | hP
      · exact ⟨_, hok.1⟩
      · exact ih hok.2.2 P hP
  unfold clockFrac
  cases hfd : parts.find? (fun P => P.label = .second) with
  | none => exact ⟨fun b hb => absurd hb (by simp), by simp⟩
  | some P =>
    obtain ⟨m, hP⟩ := hmem hok P (List.mem_of_find?_eq_some hfd)
    simp only
    cases hf : P.frac with
    | none => exact ⟨fun b hb => absurd hb (by simp), by simp⟩
    | some fs => exact ⟨(hP.2.2.2 _ hf).2.1, (hP.2.2.2 _ hf).2.2.2⟩

theorem parts_clock {parts : List ClockPart} {dy hour : Bool} {d : Dec} (hok : PartsOk dy hour parts)
    (h1 : d.tm.hour = 0) (h2 : d.tm.min = 0) (h3 : d.tm.sec = 0) (h4 : d.fSec = 0) :
    let X := parts.foldl addPart d
    X.tm.hour = clockNumber .hour parts ∧ X.tm.min = clockNumber .minute parts ∧
      X.tm.sec = clockNumber .second parts ∧ X.fSec = labelUs parts := by
  have h := parts_state (d := d) hok
  simp only at h
  obtain ⟨-, -, -, -, -, -, -, -, -, -, a11, a12, a13, a14⟩ := h
  simp only
  rw [a11, a12, a13, a14]
  refine ⟨?_, ?_, ?_, ?_⟩
  · unfold clockNumber; split <;> split <;> simp_all
  · unfold clockNumber; split <;> split <;> simp_all
  · unfold clockNumber; split <;> split <;> simp_all
  · unfold labelUs clockFrac
    cases hfd : parts.find? (fun P => P.label = .second) with
    | none => simp only [h4]; decide +kernel
    | some P =>
      simp only
      cases hf : P.frac with
      | none => simp only [Option.isSome_none, Bool.false_eq_true, if_false, h4, Option.getD_none]; decide +kernel
      | some fs => simp only [Option.isSome_some, if_true, partUs, hf, Option.getD_some]

/-- Reading a day, a clock time with labels and the marks. -/
theorem loop_labelClock (hF : ReadsDate p order {} F fits bc day) (hfit : fits) (mer : Option Bool)
    {parts : List ClockPart} (hok : PartsOk true false parts) {l : List Field}
    (hl : l = F ++ (labelClockFields parts ++ (merFields mer ++ bcFields bc))) :
    if ∀ P ∈ parts, NumOk P.digits then
      ∃ Z X : Dec, DateState p Z bc day ∧ dateTimeLoop p plainLook order (l.map Prod.fst) l 0 ({}, ()) =
          (.ok (), (withBc (withMer X mer) bc, ())) ∧
        X.tm.year = Z.tm.year ∧ X.tm.mon = Z.tm.mon ∧ X.tm.mday = Z.tm.mday ∧ X.tm.yday = Z.tm.yday ∧
        X.is2 = Z.is2 ∧ X.isJulian = Z.isJulian ∧ X.fMask &&& 32782 = Z.fMask &&& 32782 ∧ X.bc = false ∧
        X.mer = 2 ∧ X.dType = .date ∧
        X.tm.hour = clockNumber .hour parts ∧ X.tm.min = clockNumber .minute parts ∧
        X.tm.sec = clockNumber .second parts ∧ X.fSec = labelUs parts
    else ∃ e s, dateTimeLoop p plainLook order (l.map Prod.fst) l 0 ({}, ()) = (.err e, s) := by
  obtain ⟨ft, hft⟩ : ∃ ft, ft = l.map Prod.fst := ⟨_, rfl⟩
  rw [← hft]
  obtain ⟨Z, hZ, hrun⟩ := hF.ok hfit
  have hm := fun k => mask_of (k := k) hZ.mask
  rw [hl, hrun]
  have hmask : MaskFor true false parts Z.fMask := by
    refine ⟨fun P _ => ?_, by simp⟩
    cases P.label
    · exact (hm 1024 (by decide)).trans (by decide)
    · exact (hm 2048 (by decide)).trans (by decide)
    · exact (hm 28672 (by decide)).trans (by decide)
  have h2 : Z.fMask &&& 2 ≠ 0 := by rw [hm 2 (by decide)]; decide
  have hp := loop_parts (p := p) (order := order) (ft := ft) (i := 0 + F.length) hok hmask h2
    (merFields mer ++ bcFields bc)
  by_cases hk : ∀ P ∈ parts, NumOk P.digits
  · rw [if_pos hk] at hp ⊢
    have hst := parts_state (d := Z) hok
    have hck := parts_clock (d := Z) hok hZ.hour hZ.min hZ.sec hZ.fSec
    simp only at hst hck
    obtain ⟨a1, a2, a3, a4, a5, a6, a7, a8, a9, a10, -⟩ := hst
    obtain ⟨c1, c2, c3, c4⟩ := hck
    refine ⟨Z, parts.foldl addPart Z, hZ, ?_, a1, a2, a3, a4, a5, a6, a9 _ (by decide), a7.trans hZ.bc, a8.trans hZ.mer,
      a10 hZ.dType, c1, c2, c3, c4⟩
    rw [hp]
    exact loop_tail p order ft _ _ mer bc ((a9 _ (by decide)).trans ((hm 512 (by decide)).trans (by decide)))
      ((a9 _ (by decide)).trans ((hm 262144 (by decide)).trans (by decide)))
  · rw [if_neg hk] at hp ⊢
    exact hp

variable {parts : List ClockPart} {mer : Option Bool} {text : Bytes} {cs : Caches} {u : TokenField}

theorem labelUs_bounds {dy hour : Bool} (hok : PartsOk dy hour parts) : 0 ≤ labelUs parts ∧ labelUs parts ≤ 1000000 :=
  fracMicros_bounds (f := some (clockFrac parts)) (frac_digits hok).1 (frac_digits hok).2

theorem labelUs_nearest {dy hour : Bool} (hok : PartsOk dy hour parts) :
    NearestMicros (clockFrac parts) (labelUs parts) :=
  fracMicros_nearest (f := some (clockFrac parts)) (frac_digits hok).1 (frac_digits hok).2

/-- Every number of a correct list can be found by its label. -/
theorem number_of {dy : Bool} : ∀ {ps : List ClockPart} {hour : Bool}, PartsOk dy hour ps → ∀ P ∈ ps,
    clockNumber P.label ps = value P.digits ∧ P.digits.length ≤ 10 := by
  intro ps
  induction ps with
  | nil => intro _ _ P hP; simp at hP
  | cons Q r ih =>
    intro hour hok P hP
    obtain ⟨hQ, hq, hok'⟩ := hok
    rcases List.mem_cons.1 hP with rfl | hP
    · exact ⟨by simp [clockNumber], hQ.2.2.1.2.2⟩
    · obtain ⟨i1, i2⟩ := ih hok' P hP
      have hne := (hq P hP).2
      refine ⟨?_, i2⟩
      rw [← i1]
      unfold clockNumber
      rw [List.find?_cons_of_neg (by simpa using fun h => hne h.symm)]

theorem partsOk_num {dy hour : Bool} (hok : PartsOk dy hour parts) (h : ∀ l, clockNumber l parts ≤ 2147483647) :
    ∀ P ∈ parts, NumOk P.digits := by
  intro P hP
  obtain ⟨h1, h2⟩ := number_of hok P hP
  exact ⟨h2, by rw [← h1]; exact h _⟩

/-- `Timestamp::try_from_str` on a day and a clock time with labels whose numbers are not above 99. -/
theorem timestamp_labelClock (hF : ReadsDate p order {} F fits bc day) (hcs : cs.Ok) (hok : PartsOk true false parts)
    (h99 : ∀ k, hourOf mer (clockNumber .hour parts) = some k →
      k ≤ 99 ∧ clockNumber .minute parts ≤ 99 ∧ clockNumber .second parts ≤ 99)
    (hs : scan u text = .ok (F ++ (labelClockFields parts ++ (merFields mer ++ bcFields bc)))) :
    match day bc, hourOf mer (clockNumber .hour parts) with
    | some c, some k =>
      if TsRange (instant c ⟨k, clockNumber .minute parts, clockNumber .second parts, labelUs parts⟩) then
        Timestamp.tryFromStr p u cs text (-1) order =
          .ok ⟨instant c ⟨k, clockNumber .minute parts, clockNumber .second parts, labelUs parts⟩⟩
      else (Timestamp.tryFromStr p u cs text (-1) order).IsErr
    | _, _ => (Timestamp.tryFromStr p u cs text (-1) order).IsErr := by
  have herr : ∀ e s, decodeDateTime p plainLook order
      (F ++ (labelClockFields parts ++ (merFields mer ++ bcFields bc))) ({}, ()) = (.err e, s) →
      (Timestamp.tryFromStr p u cs text (-1) order).IsErr := by
    rintro e ⟨d, w'⟩ hrun
    rw [timestamp_run p u hcs (-1) order hs hrun]; exact ⟨_, rfl⟩
  have bu := labelUs_bounds hok
  by_cases hfit : fits
  · have hloop := loop_labelClock hF hfit mer hok (l := _) rfl
    by_cases hk : ∀ P ∈ parts, NumOk P.digits
    swap
    · rw [if_neg hk] at hloop
      obtain ⟨e, s, hloop⟩ := hloop
      have hE := herr _ _ (dateTime_err p order hloop)
      cases hday : day bc with
      | none => exact hE
      | some c =>
        cases hh : hourOf mer (clockNumber .hour parts) with
        | none => exact hE
        | some k =>
          obtain ⟨b1, b2, b3⟩ := h99 k hh
          refine absurd (partsOk_num hok ?_) hk
          intro l
          cases l with
          | hour =>
            cases mer with
            | none => simp only [hourOf, Option.some.injEq] at hh; omega
            | some pm => have := hour24_in hh; omega
          | minute => omega
          | second => omega
    rw [if_pos hk] at hloop
    obtain ⟨Z, X, hZ, hloop, x1, x2, x3, x4, x5, x6, x7, x8, x9, x10, x11, x12, x13, x14⟩ := hloop
    have hrun := run_anyDate mer hZ hloop x1 x2 x3 x4 x5 x6 x7 x8 x9 x10 x11
    cases hday : day bc with
    | none =>
      rw [hday] at hrun
      obtain ⟨e, s, hrun⟩ := hrun
      exact herr _ _ hrun
    | some c =>
      cases hh : hourOf mer (clockNumber .hour parts) with
      | none =>
        rw [hday, hh] at hrun
        obtain ⟨e, s, hrun⟩ := hrun
        exact herr _ _ hrun
      | some k =>
        rw [hday, hh] at hrun
        obtain ⟨hre, d, hrun, e1, e2, e3, e4, e5, e6, e7, e8⟩ := hrun
        simp only
        obtain ⟨b1, b2, b3⟩ := h99 k hh
        have hts := timestamp_ofDec p (t := ⟨k, clockNumber .minute parts, clockNumber .second parts, labelUs parts⟩)
          e1 e2 e3 e4 e5 (e6.trans x12)
          (e7.trans x13) (e8.trans x14) hre
          (by simp only; omega) (by simp only; omega) (by simp only; omega) bu
        rw [timestamp_run p u hcs (-1) order hs hrun, Res.bind_ok]
        by_cases hd : TsRange (instant c ⟨k, clockNumber .minute parts, clockNumber .second parts, labelUs parts⟩)
        · rw [if_pos hd] at hts
          rw [if_pos hd, hts, Res.bind_ok, timestamp_noTypmod]
        · rw [if_neg hd] at hts
          rw [if_neg hd]
          obtain ⟨e, he⟩ := hts
          rw [he]; exact ⟨_, rfl⟩
  · obtain ⟨e, s, hloop⟩ := hF.err hfit ((F ++ (labelClockFields parts ++ (merFields mer ++ bcFields bc))).map Prod.fst) 0
      (labelClockFields parts ++ (merFields mer ++ bcFields bc))
    have hE := herr _ _ (dateTime_err p order hloop)
    cases hday : day bc with
    | none => exact hE
    | some c =>
      cases hh : hourOf mer (clockNumber .hour parts) with
      | none => exact hE
      | some k =>
        simp only
        rw [if_neg]
        · exact hE
        · intro hts
          obtain ⟨b1, b2, b3⟩ := h99 k hh
          obtain ⟨hr, hb⟩ := hF.big hfit c hday
          have := dateRange_of_tsRange (t := ⟨k, clockNumber .minute parts, clockNumber .second parts, labelUs parts⟩)
            (by simp only [Clock.micros]; omega) hts hr
          omega

/-- `Date::try_from_str` on a day and a clock time with labels. -/
theorem date_labelClock (hF : ReadsDate p order {} F fits bc day) (hcs : cs.Ok) (hok : PartsOk true false parts)
    (hs : scan u text = .ok (F ++ (labelClockFields parts ++ (merFields mer ++ bcFields bc)))) :
    match day bc, hourOf mer (clockNumber .hour parts) with
    | some c, some _ =>
      if (∀ P ∈ parts, NumOk P.digits) ∧ DateRange (dayNumber c) then
        Date.tryFromStr p u cs text order = .ok ⟨dayNumber c⟩
      else (Date.tryFromStr p u cs text order).IsErr
    | _, _ => (Date.tryFromStr p u cs text order).IsErr := by
  have herr : ∀ e s, decodeDateTime p plainLook order
      (F ++ (labelClockFields parts ++ (merFields mer ++ bcFields bc))) ({}, ()) = (.err e, s) →
      (Date.tryFromStr p u cs text order).IsErr := by
    rintro e ⟨d, w'⟩ hrun
    rw [date_run p u hcs order hs hrun]; exact ⟨_, rfl⟩
  by_cases hfit : fits
  · have hloop := loop_labelClock hF hfit mer hok (l := _) rfl
    by_cases hk : ∀ P ∈ parts, NumOk P.digits
    · rw [if_pos hk] at hloop
      obtain ⟨Z, X, hZ, hloop, x1, x2, x3, x4, x5, x6, x7, x8, x9, x10, x11, x12, x13, x14⟩ := hloop
      have hrun := run_anyDate mer hZ hloop x1 x2 x3 x4 x5 x6 x7 x8 x9 x10 x11
      cases hday : day bc with
      | none =>
        rw [hday] at hrun
        obtain ⟨e, s, hrun⟩ := hrun
        exact herr _ _ hrun
      | some c =>
        cases hh : hourOf mer (clockNumber .hour parts) with
        | none =>
          rw [hday, hh] at hrun
          obtain ⟨e, s, hrun⟩ := hrun
          exact herr _ _ hrun
        | some k =>
          rw [hday, hh] at hrun
          obtain ⟨hre, d, hrun, e1, e2, e3, e4, -⟩ := hrun
          simp only
          rw [date_run p u hcs order hs hrun, Res.bind_ok, date_ofDec p e1 e2 e3 e4 hre]
          by_cases hd : DateRange (dayNumber c)
          · rw [if_pos hd, if_pos ⟨hk, hd⟩]
          · rw [if_neg hd, if_neg (fun q => hd q.2)]
            exact ⟨_, rfl⟩
    · rw [if_neg hk] at hloop
      obtain ⟨e, s, hloop⟩ := hloop
      have hE := herr _ _ (dateTime_err p order hloop)
      cases hday : day bc with
      | none => exact hE
      | some c =>
        cases hh : hourOf mer (clockNumber .hour parts) with
        | none => exact hE
        | some k => simp only; rw [if_neg (fun q => hk q.1)]; exact hE
  · obtain ⟨e, s, hloop⟩ := hF.err hfit ((F ++ (labelClockFields parts ++ (merFields mer ++ bcFields bc))).map Prod.fst) 0
      (labelClockFields parts ++ (merFields mer ++ bcFields bc))
    have hE := herr _ _ (dateTime_err p order hloop)
    cases hday : day bc with
    | none => exact hE
    | some c =>
      cases hh : hourOf mer (clockNumber .hour parts) with
      | none => exact hE
      | some k =>
        simp only
        rw [if_neg]
        · exact hE
        · rintro ⟨-, hts⟩
          obtain ⟨hr, hb⟩ := hF.big hfit c hday
          rcases hb with hb | hb
          · exact not_dateRange_of_year hr (by omega) hts
          · exact not_dateRange_of_year' hr (by omega) hts

/-- The written days of `DayText`. -/
theorem reads_dayText {D : DayText} (hD : D.Ok) (b : Bool) :
    ReadsDate p order {} [(dayField D, D.bytes)] (DayFits order D) b (fun b => D.day order b) := by
  refine ⟨?_, ?_, ?_⟩
  · intro hf
    refine ⟨dateDec (dayNums order D), ⟨rfl, rfl, rfl, rfl, by simp [dateDec], rfl, rfl, rfl, rfl, ?_⟩, ?_⟩
    · intro tm m e1 e2 e3 e4 e5
      have m14 : m &&& 14 = 14 := by
        have : (m &&& 32782) &&& 14 = 14 := by rw [e5]; simp [dateDec]
        rwa [Nat.and_assoc] at this
      have mdoy : m &&& 32768 = 0 := by
        have : (m &&& 32782) &&& 32768 = 0 := by rw [e5]; simp [dateDec]
        rwa [Nat.and_assoc] at this
      have e1 : tm.year = value (dayNums order D).1 := e1
      have e2 : tm.mon = value (dayNums order D).2.1 := e2
      have e3 : tm.mday = value (dayNums order D).2.2 := e3
      have hy := hf.1.2
      have hv := validateDate_gen p tm (m := m) (decide ((dayNums order D).1.length ≤ 2)) b m14 mdoy (by rw [e1]; omega)
      show match D.day order b with
        | none => ∃ e, tm.validateDate p m false (decide ((dayNums order D).1.length ≤ 2)) b = .err e
        | some c => c.Real ∧ tm.validateDate p m false (decide ((dayNums order D).1.length ≤ 2)) b =
            .ok { tm with year := c.y, mon := c.m, mday := c.d }
      rw [hv, day_eq, e1, e2, e3, yearOf_eq (dayNums_digits order hD)]
      unfold namedDay
      cases hy : inputYear (dayNums order D).1 b with
      | none => exact ⟨_, rfl⟩
      | some y =>
        simp only
        by_cases hr : (⟨y, value (dayNums order D).2.1, value (dayNums order D).2.2⟩ : YMD).Real
        · rw [if_pos hr, if_pos hr]
          refine ⟨hr, ?_⟩
          simp only [← e2, ← e3]
        · rw [if_neg hr, if_neg hr]
          exact ⟨_, rfl⟩
    · intro ft i rest
      have := field_dayText p order ft i hD
      rw [if_pos hf] at this
      exact loop_cons this
  · intro hf ft i rest
    have := field_dayText p order ft i hD
    rw [if_neg hf] at this
    obtain ⟨s, this⟩ := this
    exact ⟨_, _, loop_cons_err this⟩
  · intro hf c hc
    exact day_big hD hf c hc

end

theorem label_len' {D : LabelText} (hD : D.Ok) : D.bytes ≠ [] ∧ D.bytes.length ≤ 48 := by
  obtain ⟨hn, -⟩ := label_len hD
  obtain ⟨ha, hb, hc, hg, hh, -⟩ := hD
  have k : ∀ {P : LabelPart}, P.Ok → P.bytes.length ≤ 13 := by
    rintro P ⟨h1, h2, h3⟩
    have := congrArg List.length h1
    simp only [List.length_map] at this
    have hw : P.label.word.length = 1 := by cases P.label <;> rfl
    have := beside_len h2
    have := h3.2.2
    simp [LabelPart.bytes]; omega
  have := k ha; have := k hb; have := k hc; have := beside_len hg; have := beside_len hh
  exact ⟨hn, by simp [LabelText.bytes]; omega⟩

/-- Scanning a written day and what follows it. -/
theorem scans_day' (u : TokenField) {D : DayText} (hD : D.Ok) {r : Bytes} {l : List Field} (hr : Loose r)
    (h : Scans u r l) : Scans u (D.bytes ++ r) ([(dayField D, D.bytes)] ++ l) := by
  cases D with
  | numeric x a b c =>
    obtain ⟨hx, ha, hb, hc, -⟩ := hD
    have := Scans.date (u := u) (show isSep x from hx) ha.1 (DigitsOf.ne ha (by omega)) hb.1 (DigitsOf.ne hb (by omega))
      hc.1 (hr.date hx) h
    simpa [DayText.bytes, numericDate, dayField] using this
  | compact ys mm dd =>
    obtain ⟨h1, h3, h4⟩ := hD
    exact Scans.number (digits_append.2 ⟨digits_append.2 ⟨h1.1, h3.1⟩, h4.1⟩) (by
      have := DigitsOf.ne h1 (by omega)
      simp [DayText.bytes, this]) hr.number h

end Pg
