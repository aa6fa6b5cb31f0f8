import Verif.Lemmas.DateBack

/-! # Printed timestamps as input -/

namespace Pg
open Spec

section
variable {p : Profile} {order : DateOrder} {ft : List TokenField} {i : Nat} {d d' : Dec}

/-- A keyword. -/
theorem field_word {w : Bytes} {e : DateToken} (hs : searchDate w = .ok (some e)) (hty : e.ty ≠ .ignoreDtf)
    (ha : wordAction ft i e.ty e.value d = (.ok (), d')) (hm : d'.tMask &&& d'.fMask = 0) :
    dateTimeField p plainLook order ft i (.string, w) (d, ()) =
      (.ok (), ({ d' with fMask := d'.fMask ||| d'.tMask }, ())) := by
  have hl : lookDate plainLook i w (d, ()) = (.ok (e.ty, e.value), (d, ())) := by
    unfold lookDate plainLook
    simp only [hs]
    rfl
  have e : wordToken plainLook ft i w (d, ()) = (.ok false, (d', ())) := by
    unfold wordToken
    rw [St.bind_ok hl]
    simp only
    rw [St.ite_run, if_neg hty, St.bind_ok (noLook_run ha)]
    rfl
  unfold dateTimeField
  simp only
  rw [St.bind_ok e]
  simp only [Bool.false_eq_true, if_false]
  rw [noLook_run (addMask_run hm)]

/-- A word that is not a keyword. -/
theorem field_word_unknown {w : Bytes} (hs : searchDate w = .ok none) :
    ∃ s, dateTimeField p plainLook order ft i (.string, w) (d, ()) = (.err .invalid, s) := by
  have hl : lookDate plainLook i w (d, ()) = (.ok (.unknownField, 0), (d, ())) := by
    unfold lookDate plainLook
    simp only [hs]
    rfl
  have e : ∃ s, wordToken plainLook ft i w (d, ()) = (.err .invalid, s) := by
    unfold wordToken
    rw [St.bind_ok hl]
    simp only
    rw [St.ite_run, if_neg (by decide)]
    exact ⟨_, St.bind_err (noLook_run (by unfold wordAction; rw [St.mod_bind]; rfl))⟩
  obtain ⟨s, e⟩ := e
  unfold dateTimeField
  simp only
  exact ⟨s, by rw [St.bind_err e]⟩

/-- A weekday name. -/
theorem field_dow {w : Bytes} {e : DateToken} (hs : searchDate w = .ok (some e)) (hty : e.ty = .dow)
    (hm : d.fMask &&& 65536 = 0) :
    dateTimeField p plainLook order ft i (.string, w) (d, ()) =
      (.ok (), ({ d with tm := { d.tm with wday := e.value }, tMask := 65536, fMask := d.fMask ||| 65536 }, ())) := by
  refine field_word (d' := { d with tm := { d.tm with wday := e.value }, tMask := 65536 }) hs (by rw [hty]; decide) ?_
    (by rw [Nat.and_comm]; exact hm)
  rw [hty]
  unfold wordAction
  rw [St.mod_bind]
  rfl

/-- A month name. -/
theorem field_month {w : Bytes} {e : DateToken} (hs : searchDate w = .ok (some e)) (hty : e.ty = .month)
    (hm : d.fMask &&& 2 = 0) :
    dateTimeField p plainLook order ft i (.string, w) (d, ()) =
      (.ok (), ({ d with tm := { d.tm with mon := e.value }, textMonth := true, tMask := 2,
                         fMask := d.fMask ||| 2 }, ())) := by
  refine field_word (d' := { d with tm := { d.tm with mon := e.value }, textMonth := true, tMask := 2 }) hs
    (by rw [hty]; decide) ?_ (by rw [Nat.and_comm]; exact hm)
  rw [hty]
  unfold wordAction
  rw [St.mod_bind]
  simp only
  unfold monthWord
  rw [St.mod_run, if_neg (by simp [hm])]
  rfl

theorem dotPos_digits {f : Bytes} (h : Digits f) : dotPos f = f.length := by
  unfold dotPos
  have e := takeWhile_span (p := fun b : Nat => decide (b ≠ 46)) (a := f) (r := []) (by
    intro b hb
    have := h b hb
    simp; omega) (Stops.nil _)
  rw [List.append_nil] at e
  rw [e]

/-- A plain number that the decoder takes as the day. -/
theorem field_day {f : Bytes} (hf : Digits f) (nf : f ≠ []) (hl : f.length ≤ 2) (hp : d.pType = .number)
    (h : (d.fMask &&& 14 = 0 ∧ order = .dmy) ∨ d.fMask &&& 14 = 2) (hm : d.fMask &&& 8 = 0) :
    dateTimeField p plainLook order ft i (.number, f) (d, ()) =
      (.ok (), ({ d with tm := { d.tm with mday := value f }, tMask := 8, fMask := d.fMask ||| 8 }, ())) := by
  have hk : NumOk f := by
    have hv := value_lt hf
    have : 10 ^ f.length ≤ 10 ^ 2 := Nat.pow_le_pow_right (by omega) hl
    exact ⟨by omega, by omega⟩
  have hn : numberToken p plainLook f order (d, ()) =
      (.ok (), ({ d with tm := { d.tm with mday := value f }, tMask := 8 }, ())) := by
    unfold numberToken
    rw [St.bind_ok (noLook_run (St.get_run _)), St.ite_run, if_neg (by rw [hp]; decide), St.ite_run,
      if_neg (by rw [dotPos_digits hf]; tauto), St.ite_run, if_neg (by rw [dotPos_digits hf]; tauto), St.ite_run,
      if_neg (by omega)]
    refine noLook_run ?_
    unfold onNum
    have e := decodeNumber_digits hf nf false d.fMask order ⟨d.tMask, d.tm, d.fSec, d.is2⟩
    rw [if_pos hk, nv_day _ (by
      rcases h with h | h
      · exact Or.inl ⟨h.1, hl, h.2⟩
      · exact Or.inr (Or.inl h))] at e
    simp only [St.zoom, e]
  unfold dateTimeField
  simp only
  rw [St.bind_ok hn, noLook_run (addMask_run (by rw [Nat.and_comm]; exact hm))]

/-- A plain number that the decoder takes as the year. -/
theorem field_year {f : Bytes} (hf : Digits f) (nf : f ≠ []) (hk : NumOk f) (hp : d.pType = .number)
    (h : d.fMask &&& 14 = 10) (ht : d.fMask &&& 31744 ≠ 0) (hm : d.fMask &&& 4 = 0) :
    dateTimeField p plainLook order ft i (.number, f) (d, ()) =
      (.ok (), ({ d with tm := { d.tm with year := value f }, is2 := decide (f.length ≤ 2), tMask := 4,
                         fMask := d.fMask ||| 4 }, ())) := by
  have hn : numberToken p plainLook f order (d, ()) =
      (.ok (), ({ d with tm := { d.tm with year := value f }, is2 := decide (f.length ≤ 2), tMask := 4 }, ())) := by
    unfold numberToken
    rw [St.bind_ok (noLook_run (St.get_run _)), St.ite_run, if_neg (by rw [hp]; decide), St.ite_run,
      if_neg (by rw [dotPos_digits hf]; tauto), St.ite_run, if_neg (by rw [dotPos_digits hf]; tauto), St.ite_run,
      if_neg (by omega)]
    refine noLook_run ?_
    unfold onNum
    have e := decodeNumber_digits hf nf false d.fMask order ⟨d.tMask, d.tm, d.fSec, d.is2⟩
    rw [if_pos hk, nv_year _ (by omega)] at e
    simp only [St.zoom, e]
  unfold dateTimeField
  simp only
  rw [St.bind_ok hn, noLook_run (addMask_run (by rw [Nat.and_comm]; exact hm))]

end

/-- Weekday names as printed are keywords. -/
theorem dayName_keyword (c : YMD) : ∃ e, searchDate (lower (dayNameText c)) = .ok (some e) ∧ e.ty = .dow := by
  unfold dayNameText
  have hw : ∀ k < 7, ∃ e, searchDate (lower (dayNames.getD k [])) = .ok (some e) ∧ e.ty = .dow := by
    have h : ∀ k < 7, (match searchDate (lower (dayNames.getD k [])) with
      | .ok (some e) => decide (e.ty = .dow) | _ => false) = true := by decide +kernel
    intro k hk
    have := h k hk
    split at this
    · rename_i e he
      exact ⟨e, he, by simpa using this⟩
    · cases this
  exact hw _ (by omega)

/-- Month names as printed are keywords, except the one of February. -/
theorem monthName_keyword {m : Int} (h : 1 ≤ m ∧ m ≤ 12) :
    if m = 2 then searchDate (lower (monthNameText m)) = .ok none
    else ∃ e, searchDate (lower (monthNameText m)) = .ok (some e) ∧ e.ty = .month ∧ e.value = m := by
  unfold monthNameText
  have hw : ∀ k < 12, (match searchDate (lower (monthNames.getD k [])) with
      | .ok (some e) => decide (k ≠ 1 ∧ e.ty = .month ∧ e.value = (k : Int) + 1)
      | .ok none => decide (k = 1) | _ => false) = true := by decide +kernel
  have := hw (m - 1).toNat (by omega)
  split at this
  · rename_i e he
    simp only [decide_eq_true_eq] at this
    rw [if_neg (by omega)]
    exact ⟨e, he, this.2.1, by omega⟩
  · rename_i he
    simp only [decide_eq_true_eq] at this
    rw [if_pos (by omega), he]
  · cases this

theorem dayName_letters (c : YMD) : Letters (dayNameText c) ∧ dayNameText c ≠ [] := by
  unfold dayNameText Letters
  have hw : ∀ k < 7, (∀ b ∈ dayNames.getD k [], isAlpha b = true) ∧ dayNames.getD k [] ≠ [] := by decide +kernel
  exact hw _ (by omega)

theorem monthName_letters {m : Int} (h : 1 ≤ m ∧ m ≤ 12) : Letters (monthNameText m) ∧ monthNameText m ≠ [] := by
  unfold monthNameText Letters
  have hw : ∀ k < 12, (∀ b ∈ monthNames.getD k [], isAlpha b = true) ∧ monthNames.getD k [] ≠ [] := by
    decide +kernel
  exact hw _ (by omega)

/-- The first three fields of a timestamp in the Postgres style. -/
def pgHead (order : DateOrder) (c : YMD) : List Field :=
  (.string, lower (dayNameText c)) :: match order with
    | .dmy => [(.number, two c.d), (.string, lower (monthNameText c.m))]
    | _ => [(.string, lower (monthNameText c.m)), (.number, two c.d)]

/-- The fields of a timestamp in the Postgres style. -/
def pgFields (order : DateOrder) (c : YMD) (hms : Bytes) : List Field :=
  pgHead order c ++ (.time, hms) :: (.number, yearText c.y) :: bcFields (decide (c.y ≤ 0))

theorem scans_pg (u : TokenField) (order : DateOrder) {c : YMD} (hr : c.Real) {t : Clock} :
    Scans u (timestampText .postgres order c t) (pgFields order c (clockText t)) := by
  have hb := real_bounds hr
  have hdl := dayName_letters c
  have hml := monthName_letters (m := c.m) (by omega)
  have hy : Scans u (yearText c.y ++ bcMark (decide (c.y ≤ 0)))
      ((.number, yearText c.y) :: bcFields (decide (c.y ≤ 0))) :=
    Scans.number (yearText_digits _) (yearText_ne _) (by
      cases decide (c.y ≤ 0)
      · exact Stops.nil _
      · exact Stops.cons rfl) (scans_bc u _)
  have ht : Scans u (clockText t ++ 32 :: (yearText c.y ++ bcMark (decide (c.y ≤ 0))))
      ((.time, clockText t) :: (.number, yearText c.y) :: bcFields (decide (c.y ≤ 0))) := by
    have h := Scans.time (u := u) (rest := 32 :: (yearText c.y ++ bcMark (decide (c.y ≤ 0)))) (two_digits t.h)
      (two_ne t.h) (hms_timeB (f := fracOf t.us) (two_digits t.mi) (two_digits t.s) (fracOf_digits _))
      (Stops.cons rfl) (Scans.space hy)
    rw [clockText_hms, hmsBytes]
    have e : two t.h ++ 58 :: (two t.mi ++ 58 :: (two t.s ++ fracBytes (fracOf t.us))) ++
        32 :: (yearText c.y ++ bcMark (decide (c.y ≤ 0))) =
        two t.h ++ 58 :: (two t.mi ++ 58 :: (two t.s ++ fracBytes (fracOf t.us)) ++
          32 :: (yearText c.y ++ bcMark (decide (c.y ≤ 0)))) := by simp
    rw [e]
    exact h
  have hnum : ∀ {r : Bytes} {l : List Field}, Scans u r l →
      Scans u (two c.d ++ 32 :: r) ((.number, two c.d) :: l) := fun h =>
    Scans.number (two_digits _) (two_ne _) (Stops.cons rfl) (Scans.space h)
  have hmon : ∀ {r : Bytes} {l : List Field}, Scans u r l →
      Scans u (monthNameText c.m ++ 32 :: r) ((.string, lower (monthNameText c.m)) :: l) := fun h =>
    Scans.wordSpace hml.1 hml.2 (Or.inr ⟨_, rfl⟩) (Scans.space h)
  have hday : ∀ {r : Bytes} {l : List Field}, Scans u r l →
      Scans u (dayNameText c ++ 32 :: r) ((.string, lower (dayNameText c)) :: l) := fun h =>
    Scans.wordSpace hdl.1 hdl.2 (Or.inr ⟨_, rfl⟩) (Scans.space h)
  have other : ∀ s, s = dayNameText c ++ ([32] ++ ((monthNameText c.m ++ ([32] ++ two c.d)) ++
      ([32] ++ (clockText t ++ ([32] ++ yearText c.y))))) ++ eraText c.y →
      Scans u s ((.string, lower (dayNameText c)) :: (.string, lower (monthNameText c.m)) ::
        (.number, two c.d) :: (.time, clockText t) :: (.number, yearText c.y) :: bcFields (decide (c.y ≤ 0))) := by
    intro s e
    have := hday (hmon (hnum ht))
    rw [bcMark_era] at e
    simp only [List.append_assoc, List.cons_append, List.nil_append] at e this
    rw [e]
    exact this
  cases order with
  | dmy =>
    have := hday (hnum (hmon ht))
    show Scans u (timestampText .postgres .dmy c t) ((.string, lower (dayNameText c)) :: (.number, two c.d) ::
      (.string, lower (monthNameText c.m)) :: (.time, clockText t) :: (.number, yearText c.y) ::
        bcFields (decide (c.y ≤ 0)))
    unfold timestampText instantText
    rw [bcMark_era]
    simp only [List.append_assoc, List.cons_append, List.nil_append] at this ⊢
    exact this
  | ymd => exact other _ rfl
  | mdy => exact other _ rfl

/-- The state after a timestamp in the Postgres style (without era). -/
def pgDec (c : YMD) (wd : Int) (hh mm ss : Bytes) (f : Option Bytes) : Dec :=
  { tm := { year := value (yearText c.y), mon := c.m, mday := value (two c.d), wday := wd, hour := value hh,
            min := value mm, sec := value ss },
    is2 := decide ((yearText c.y).length ≤ 2), textMonth := true, tMask := 4, fMask := 97294,
    fSec := fracMicros f }

/-- The state after the first three fields. -/
def pgHeadDec (c : YMD) (wd : Int) (t : Nat) : Dec :=
  { tm := { mon := c.m, mday := value (two c.d), wday := wd }, textMonth := true, tMask := t, fMask := 65546 }

theorem loop_pgHead (p : Profile) (order : DateOrder) (ft : List TokenField) (rest : List Field) {c : YMD}
    (hr : c.Real) :
    if c.m = 2 then
      ∃ s, dateTimeLoop p plainLook order ft (pgHead order c ++ rest) 0 ({}, ()) = (.err .invalid, s)
    else ∃ wd t, dateTimeLoop p plainLook order ft (pgHead order c ++ rest) 0 ({}, ()) =
        dateTimeLoop p plainLook order ft rest 3 (pgHeadDec c wd t, ()) := by
  have hb := real_bounds hr
  obtain ⟨ed, hd1, hd2⟩ := dayName_keyword c
  have hmk := monthName_keyword (m := c.m) (by omega)
  have l2 := two_len_le (v := c.d) (by omega)
  have h1 := field_dow (p := p) (order := order) (ft := ft) (i := 0) (d := {}) hd1 hd2
    (show (0 : Nat) &&& 65536 = 0 by decide)
  have e0 : (0 : Nat) ||| 65536 = 65536 := by decide
  simp only [e0] at h1
  have other : ∀ order, if c.m = 2 then
      ∃ s, dateTimeLoop p plainLook order ft ((.string, lower (monthNameText c.m)) :: (.number, two c.d) :: rest) 1
        ({ tm := { wday := ed.value }, tMask := 65536, fMask := 65536 }, ()) = (.err .invalid, s)
      else dateTimeLoop p plainLook order ft ((.string, lower (monthNameText c.m)) :: (.number, two c.d) :: rest) 1
        ({ tm := { wday := ed.value }, tMask := 65536, fMask := 65536 }, ()) =
        dateTimeLoop p plainLook order ft rest 3 (pgHeadDec c ed.value 8, ()) := by
    intro order
    by_cases h2 : c.m = 2
    · rw [if_pos h2] at hmk ⊢
      obtain ⟨s, hs⟩ := field_word_unknown (p := p) (order := order) (ft := ft) (i := 1)
        (d := { tm := { wday := ed.value }, tMask := 65536, fMask := 65536 }) hmk
      exact ⟨s, loop_cons_err hs⟩
    · rw [if_neg h2] at hmk ⊢
      obtain ⟨em, m1, m2, m3⟩ := hmk
      have g2 := field_month (p := p) (order := order) (ft := ft) (i := 1)
        (d := { tm := { wday := ed.value }, tMask := 65536, fMask := 65536 }) m1 m2
        (show (65536 : Nat) &&& 2 = 0 by decide)
      have e2 : (65536 : Nat) ||| 2 = 65538 := by decide
      simp only [e2, m3] at g2
      have g3 := field_day (p := p) (order := order) (ft := ft) (i := 2)
        (d := { tm := { wday := ed.value, mon := c.m }, textMonth := true, tMask := 2, fMask := 65538 })
        (two_digits c.d) (two_ne c.d) l2 rfl (Or.inr (show (65538 : Nat) &&& 14 = 2 by decide))
        (show (65538 : Nat) &&& 8 = 0 by decide)
      have e3 : (65538 : Nat) ||| 8 = 65546 := by decide
      simp only [e3] at g3
      rw [loop_cons g2, loop_cons g3]
      rfl
  have fin : ∀ l, pgHead order c = (.string, lower (dayNameText c)) :: l →
      dateTimeLoop p plainLook order ft (pgHead order c ++ rest) 0 ({}, ()) =
        dateTimeLoop p plainLook order ft (l ++ rest) 1
          ({ tm := { wday := ed.value }, tMask := 65536, fMask := 65536 }, ()) := by
    intro l e
    rw [e, List.cons_append, loop_cons h1]
  cases order with
  | dmy =>
    rw [fin _ rfl]
    have g2 := field_day (p := p) (order := .dmy) (ft := ft) (i := 1)
      (d := { tm := { wday := ed.value }, tMask := 65536, fMask := 65536 })
      (two_digits c.d) (two_ne c.d) l2 rfl (Or.inl ⟨show (65536 : Nat) &&& 14 = 0 by decide, rfl⟩)
      (show (65536 : Nat) &&& 8 = 0 by decide)
    have e2 : (65536 : Nat) ||| 8 = 65544 := by decide
    simp only [e2] at g2
    simp only [List.cons_append, List.nil_append]
    rw [loop_cons g2]
    by_cases h2 : c.m = 2
    · rw [if_pos h2] at hmk ⊢
      obtain ⟨s, hs⟩ := field_word_unknown (p := p) (order := .dmy) (ft := ft) (i := 2)
        (d := { tm := { wday := ed.value, mday := value (two c.d) }, tMask := 8, fMask := 65544 }) hmk
      exact ⟨s, loop_cons_err hs⟩
    · rw [if_neg h2] at hmk ⊢
      obtain ⟨em, m1, m2, m3⟩ := hmk
      have g3 := field_month (p := p) (order := .dmy) (ft := ft) (i := 2)
        (d := { tm := { wday := ed.value, mday := value (two c.d) }, tMask := 8, fMask := 65544 }) m1 m2
        (show (65544 : Nat) &&& 2 = 0 by decide)
      have e3 : (65544 : Nat) ||| 2 = 65546 := by decide
      simp only [e3, m3] at g3
      rw [loop_cons g3]
      exact ⟨ed.value, 2, rfl⟩
  | ymd =>
    rw [fin _ rfl]
    have := other .ymd
    by_cases h2 : c.m = 2
    · rw [if_pos h2] at this ⊢; exact this
    · rw [if_neg h2] at this ⊢; exact ⟨_, _, this⟩
  | mdy =>
    rw [fin _ rfl]
    have := other .mdy
    by_cases h2 : c.m = 2
    · rw [if_pos h2] at this ⊢; exact this
    · rw [if_neg h2] at this ⊢; exact ⟨_, _, this⟩

theorem loop_pg (p : Profile) (order : DateOrder) (ft : List TokenField) {c : YMD} (hr : c.Real)
    (hy : -4714 ≤ c.y ∧ c.y ≤ 294276) (h2 : c.m ≠ 2) {t : Clock} (ht : t.Real) :
    ∃ wd, dateTimeLoop p plainLook order ft (pgFields order c (clockText t)) 0 ({}, ()) =
      (.ok (), (withBc (pgDec c wd (two t.h) (two t.mi) (two t.s) (fracOf t.us)) (decide (c.y ≤ 0)), ())) := by
  have hh := loop_pgHead p order ft
    ((.time, clockText t) :: (.number, yearText c.y) :: bcFields (decide (c.y ≤ 0))) hr
  rw [if_neg h2] at hh
  obtain ⟨wd, tk, hh⟩ := hh
  refine ⟨wd, ?_⟩
  rw [pgFields, hh]
  have ht' := ht
  unfold Clock.Real at ht'
  have l1 := two_len_le (v := t.h) (by omega)
  have l2 := two_len_le (v := t.mi) (by omega)
  have l3 := two_len_le (v := t.s) (by omega)
  have l4 := fracOf_len (us := t.us) (by omega) (by omega)
  have v1 := two_value (v := t.h) (by omega)
  have v2 := two_value (v := t.mi) (by omega)
  have v3 := two_value (v := t.s) (by omega)
  have v4 := fracOf_micros (us := t.us) (by omega) (by omega)
  have g1 := field_time_ok (p := p) (order := order) (ft := ft) (i := 3) (d := pgHeadDec c wd tk)
    (two_digits t.h) (two_ne t.h) (two_digits t.mi) (two_ne t.mi) (two_digits t.s) (two_ne t.s) (fracOf_digits t.us)
    ⟨by omega, by omega, by omega, by omega⟩ ⟨by omega, by omega, by omega, by rw [v4]; omega⟩ (Or.inl rfl)
    (show (65546 : Nat) &&& 31744 = 0 by decide)
  have hfm : (pgHeadDec c wd tk).fMask ||| 31744 = 97290 := show (65546 : Nat) ||| 31744 = 97290 by decide
  simp only [hfm] at g1
  rw [← clockText_hms] at g1
  rw [loop_cons g1]
  have hyv := yearText_value c.y
  have hyl := yearText_len (y := c.y) (by omega)
  have g2 := field_year (p := p) (order := order) (ft := ft) (i := 4)
    (d := { (pgHeadDec c wd tk) with pType := .number, tMask := DTK_TIME_M, fMask := 97290, tm := { (pgHeadDec c wd tk).tm with hour := value (two t.h), min := value (two t.mi), sec := value (two t.s) }, fSec := fracMicros (fracOf t.us) })
    (yearText_digits c.y) (yearText_ne c.y) ⟨by omega, by split at hyv <;> omega⟩ rfl
    (show (97290 : Nat) &&& 14 = 10 by decide) (show (97290 : Nat) &&& 31744 ≠ 0 by decide)
    (show (97290 : Nat) &&& 4 = 0 by decide)
  have hfm2 : (97290 : Nat) ||| 4 = 97294 := by decide
  simp only [hfm2] at g2
  rw [loop_cons g2]
  exact loop_bc p order ft 5 (pgDec c wd (two t.h) (two t.mi) (two t.s) (fracOf t.us)) _
    (show (97294 : Nat) &&& 262144 = 0 by decide)

/-- The clock reading of a printed clock time. -/
theorem clockIn_two {t : Clock} (ht : t.Real) : clockIn (two t.h) (two t.mi) (two t.s) (fracOf t.us) = t := by
  unfold Clock.Real at ht
  unfold clockIn
  rw [two_value (by omega), two_value (by omega), two_value (by omega), fracOf_micros (by omega) (by omega)]

/-- `Timestamp::try_from_str` on the text of a timestamp in the Postgres style. -/
theorem timestamp_pg (p : Profile) (u : TokenField) {cs : Caches} (hcs : cs.Ok) (order : DateOrder)
    {c : YMD} {t : Clock} (hr : c.Real) (ht : t.Real) (hts : TsRange (instant c t)) :
    if c.m = 2 then (Timestamp.tryFromStr p u cs (timestampText .postgres order c t) (-1) order).IsErr
    else Timestamp.tryFromStr p u cs (timestampText .postgres order c t) (-1) order = .ok ⟨instant c t⟩ := by
  have ht' := ht
  unfold Clock.Real at ht'
  have hm : 0 ≤ t.micros ∧ t.micros ≤ 86401000000 := by unfold Clock.micros; omega
  have hy0 := dateRange_of_tsRange (by omega) hts hr
  have hlow : -4713 ≤ c.y := by
    by_contra hlt
    have := (dayNumber_lt_iff (a := c) (b := firstDay) hr (by decide)).2 (Or.inl (by simp only [firstDay]; omega))
    rw [show dayNumber firstDay = -2451545 from by decide] at this
    rw [tsRange_iff] at hts
    unfold instant dayMicros at hts
    have : t.micros < 86400000000 := by unfold Clock.micros; omega
    omega
  have hs := scan_of (scans_pg u order hr (t := t)) (by
      unfold timestampText instantText
      have := (dayName_letters c).2
      cases order <;> simp [this])
    (timestampText_len .postgres order hr ht ⟨hlow, by omega⟩)
    (by
      unfold pgFields pgHead bcFields
      cases order <;> cases decide (c.y ≤ 0) <;> simp)
  by_cases h2 : c.m = 2
  · rw [if_pos h2]
    have hh := loop_pgHead p order ((pgFields order c (clockText t)).map Prod.fst)
      ((.time, clockText t) :: (.number, yearText c.y) :: bcFields (decide (c.y ≤ 0))) hr
    rw [if_pos h2] at hh
    obtain ⟨⟨s, w⟩, hh⟩ := hh
    rw [timestamp_run p u hcs (-1) order hs (dateTime_err p order hh)]
    exact ⟨_, rfl⟩
  · rw [if_neg h2]
    obtain ⟨wd, hl⟩ := loop_pg p order ((pgFields order c (clockText t)).map Prod.fst) hr ⟨hy0.2, hy0.1⟩ h2 ht
    have hyv := yearText_value c.y
    have hyl := yearText_len (y := c.y) (by omega)
    have hb := real_bounds hr
    have hrun := run_day p order (m := c.m) (d := c.d) hl (yearText_digits c.y)
      ⟨by omega, by split at hyv <;> omega⟩ rfl rfl (two_value (by omega)) rfl rfl rfl rfl rfl
      (show (97294 : Nat) &&& 14 = 14 by decide) (show (97294 : Nat) &&& 32768 = 0 by decide)
    rw [namedDay_year hr] at hrun
    obtain ⟨-, x, hrun, e1, e2, e3, e4, e5, e6, e7, e8⟩ := hrun
    rw [timestamp_run p u hcs (-1) order hs hrun, Res.bind_ok]
    have g1 : (value (two t.h) : Int) = t.h := two_value (by omega)
    have g2 : (value (two t.mi) : Int) = t.mi := two_value (by omega)
    have g3 : (value (two t.s) : Int) = t.s := two_value (by omega)
    have g4 := fracOf_micros (us := t.us) (by omega) (by omega)
    have hof := timestamp_ofDec p (d := x) (c := c) (t := t) e1 e2 e3 e4
      (e5.trans g1) (e6.trans g2) (e7.trans g3) (e8.trans g4) hr
      (by omega) (by omega) (by omega) (by omega)
    rw [if_pos hts] at hof
    rw [hof, Res.bind_ok, timestamp_noTypmod]

/-! ## The numeric styles -/

/-- What stands between the date and the clock time. -/
def gapOf : DateStyle → DateSep
  | .xsd => .letterT
  | _ => .space

theorem timestampText_numeric {st : DateStyle} (h : st ≠ .postgres) (o : DateOrder) (c : YMD) (t : Clock) :
    timestampText st o c t =
      numericDate (sepOf st) (partsOf st o c).1 (partsOf st o c).2.1 (partsOf st o c).2.2 ++ (gapOf st).bytes ++
        hmsBytes (two t.h) (two t.mi) (two t.s) (fracOf t.us) ++ bcMark (decide (c.y ≤ 0)) := by
  rw [← clockText_hms, ← bcMark_era]
  unfold timestampText instantText
  cases st with
  | postgres => exact absurd rfl h
  | iso => cases o <;> simp [dayText, partsOf, sepOf, gapOf, DateSep.bytes, numericDate]
  | xsd => cases o <;> simp [dayText, partsOf, sepOf, gapOf, DateSep.bytes, numericDate]
  | sql => cases o <;> simp [dayText, partsOf, sepOf, gapOf, DateSep.bytes, numericDate]
  | german => cases o <;> simp [dayText, partsOf, sepOf, gapOf, DateSep.bytes, numericDate]

theorem stamp_year {c : YMD} {t : Clock} (hr : c.Real) (ht : t.Real) (hts : TsRange (instant c t)) :
    -4713 ≤ c.y ∧ c.y ≤ 294276 := by
  unfold Clock.Real at ht
  have hm : 0 ≤ t.micros ∧ t.micros ≤ 86401000000 := by unfold Clock.micros; omega
  have hy0 := dateRange_of_tsRange (by omega) hts hr
  refine ⟨?_, hy0.1⟩
  by_contra hlt
  have := (dayNumber_lt_iff (a := c) (b := firstDay) hr (by decide)).2 (Or.inl (by simp only [firstDay]; omega))
  rw [show dayNumber firstDay = -2451545 from by decide] at this
  rw [tsRange_iff] at hts
  unfold instant dayMicros at hts
  have : t.micros < 86400000000 := by unfold Clock.micros; omega
  omega

/-- Reading a printed timestamp in any style but Postgres. -/
theorem timestampText_parse (p : Profile) (u : TokenField) {cs : Caches} (hcs : cs.Ok) {st : DateStyle}
    (h : st ≠ .postgres) (o o' : DateOrder) {c : YMD} {t : Clock} (hr : c.Real) (ht : t.Real)
    (hts : TsRange (instant c t)) :
    match inputDay o' (partsOf st o c).1 (partsOf st o c).2.1 (partsOf st o c).2.2 (decide (c.y ≤ 0)) with
    | none => (Timestamp.tryFromStr p u cs (timestampText st o c t) (-1) o').IsErr
    | some day =>
      if TsRange (instant day t) then
        Timestamp.tryFromStr p u cs (timestampText st o c t) (-1) o' = .ok ⟨instant day t⟩
      else (Timestamp.tryFromStr p u cs (timestampText st o c t) (-1) o').IsErr := by
  have hb := real_bounds hr
  have hy := stamp_year hr ht hts
  have hdig := partsOf_all (P := Digits) st o c (yearText_digits _) (two_digits _) (two_digits _)
  have hne := partsOf_all (P := fun v => v ≠ []) st o c (yearText_ne _) (two_ne _) (two_ne _)
  have hlen := partsOf_all (P := fun v => v.length ≤ 10) st o c
    (le_trans (yearText_len (by omega)) (by omega)) (le_trans (two_len_le (by omega)) (by omega))
    (le_trans (two_len_le (by omega)) (by omega))
  have ht' := ht
  unfold Clock.Real at ht'
  have l1 := two_len_le (v := t.h) (by omega)
  have l2 := two_len_le (v := t.mi) (by omega)
  have l3 := two_len_le (v := t.s) (by omega)
  have l4 := fracOf_len (us := t.us) (by omega) (by omega)
  have v1 := two_value (v := t.h) (by omega)
  have v2 := two_value (v := t.mi) (by omega)
  have v3 := two_value (v := t.s) (by omega)
  have v4 := fracOf_micros (us := t.us) (by omega) (by omega)
  have hp := timestamp_numeric p u hcs o' (decide (c.y ≤ 0)) (gapOf st) (sepOf_sep st) hdig.1 hne.1 hdig.2.1 hne.2.1
    hdig.2.2 hne.2.2 hlen.1 hlen.2.1 hlen.2.2 (fun _ => by rw [partsOf_second st o hr]; omega)
    (two_digits t.h) (two_ne t.h) (two_digits t.mi) (two_ne t.mi) (two_digits t.s) (two_ne t.s) (fracOf_digits t.us)
    (timestampText_numeric h o c t) (timestampText_len st o hr ht (by omega))
  have hrc : Readable (two t.h) (two t.mi) (two t.s) (fracOf t.us) ∧
      ClockInput (value (two t.h)) (value (two t.mi)) (value (two t.s)) (fracMicros (fracOf t.us)) :=
    ⟨⟨by omega, by omega, by omega, by omega⟩, ⟨by omega, by omega, by omega, by rw [v4]; omega⟩⟩
  rw [clockIn_two ht] at hp
  cases hd : inputDay o' (partsOf st o c).1 (partsOf st o c).2.1 (partsOf st o c).2.2 (decide (c.y ≤ 0)) with
  | none => rw [hd] at hp; exact hp
  | some day =>
    rw [hd] at hp
    simp only at hp ⊢
    by_cases hday : TsRange (instant day t)
    · rw [if_pos hday]
      rw [if_pos ⟨hrc, hday⟩] at hp
      exact hp
    · rw [if_neg hday]
      rw [if_neg (fun q => hday q.2)] at hp
      exact hp

end Pg
