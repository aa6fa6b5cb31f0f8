import Verif.Lemmas.FormsText

/-! # Days read from any fields, with a clock time and the marks after them -/

namespace Pg
open Spec

/-- The state after the fields of a day: the year with digits `ys`, month `m`, day `d`. -/
structure DayState (X : Dec) (ys : Bytes) (m d : Int) : Prop where
  year : X.tm.year = value ys
  mon : X.tm.mon = m
  mday : X.tm.mday = d
  is2 : X.is2 = decide (ys.length ≤ 2)
  bc : X.bc = false
  julian : X.isJulian = false
  mer : X.mer = 2
  dType : X.dType = .date
  pType : X.pType = .number
  mask : X.fMask &&& 327182 = 14
  hour : X.tm.hour = 0
  min : X.tm.min = 0
  sec : X.tm.sec = 0
  fSec : X.fSec = 0

theorem mask_part {f k : Nat} (h : f &&& 327182 = 14) (hk : 327182 &&& k = k) : f &&& k = 14 &&& k := by
  rw [← hk, ← Nat.and_assoc, h, hk]

/-- The fields `F` are read as a day if `fits`, and rejected otherwise; `d0` is the state before them. -/
structure ReadsDay (p : Profile) (order : DateOrder) (d0 : Dec) (F : List Field) (fits : Prop) (ys : Bytes) (m d : Int) :
    Prop where
  ok : fits → ∃ X, DayState X ys m d ∧ ∀ ft i rest,
    dateTimeLoop p plainLook order ft (F ++ rest) i (d0, ()) =
      dateTimeLoop p plainLook order ft rest (i + F.length) (X, ())
  err : ¬ fits → ∀ ft i rest, ∃ e s, dateTimeLoop p plainLook order ft (F ++ rest) i (d0, ()) = (.err e, s)
  big : ¬ fits → ∀ bc day, namedDay ys m d bc = some day →
    day.Real ∧ (2147483647 ≤ day.y ∨ day.y ≤ -2147483646)
  digits : Digits ys
  num : fits → NumOk ys

section
variable {p : Profile} {order : DateOrder} {F : List Field} {fits : Prop} {ys : Bytes} {m d : Int}

/-- Reading a day, a clock time and the marks after them. -/
theorem loop_any (hF : ReadsDay p order {} F fits ys m d) (hfit : fits) (mer : Option Bool) (bc : Bool)
    {clk : Option (DateSep × ClockText)} (hT : ClkOk clk) {l : List Field}
    (hl : l = F ++ (clkFields clk ++ (merFields mer ++ bcFields bc))) :
    if ClkAccepted clk then
      ∃ X : Dec, dateTimeLoop p plainLook order (l.map Prod.fst) l 0 ({}, ()) =
          (.ok (), (withBc (withMer X mer) bc, ())) ∧
        X.tm.year = value ys ∧ X.tm.mon = m ∧ X.tm.mday = d ∧ X.is2 = decide (ys.length ≤ 2) ∧ X.bc = false ∧
        X.isJulian = false ∧ X.mer = 2 ∧ X.dType = .date ∧ X.fMask &&& 14 = 14 ∧ X.fMask &&& 32768 = 0 ∧
        X.tm.hour = clkH clk ∧ X.tm.min = clkM clk ∧ X.tm.sec = clkS clk ∧ X.fSec = clkUs clk
    else ∃ e s, dateTimeLoop p plainLook order (l.map Prod.fst) l 0 ({}, ()) = (.err e, s) := by
  obtain ⟨ft, hft⟩ : ∃ ft, ft = l.map Prod.fst := ⟨_, rfl⟩
  rw [← hft]
  obtain ⟨Z, hZ, hrun⟩ := hF.ok hfit
  have hm := fun k => mask_part (k := k) hZ.mask
  cases clk with
  | none =>
    rw [if_pos (show ClkAccepted none from trivial)]
    refine ⟨Z, ?_, hZ.year, hZ.mon, hZ.mday, hZ.is2, hZ.bc, hZ.julian, hZ.mer, hZ.dType,
      (hm 14 (by decide)).trans (by decide), (hm 32768 (by decide)).trans (by decide), hZ.hour, hZ.min, hZ.sec, hZ.fSec⟩
    rw [hl]
    rw [hrun]
    exact loop_tail p order ft _ Z mer bc ((hm 512 (by decide)).trans (by decide))
      ((hm 262144 (by decide)).trans (by decide))
  | some st =>
    obtain ⟨sep, T⟩ := st
    obtain ⟨i, Y, hY, g1, g2, g3, g4, g5, g6, g7, g8, g9⟩ : ∃ i Y,
        dateTimeLoop p plainLook order ft l 0 ({}, ()) =
          dateTimeLoop p plainLook order ft ((clockField T, T.bytes) :: (merFields mer ++ bcFields bc)) i (Y, ()) ∧
        (Y.pType = .number ∨ Y.pType = .time) ∧ Y.fMask = Z.fMask ∧ Y.tm = Z.tm ∧
        Y.is2 = Z.is2 ∧
        Y.bc = false ∧ Y.isJulian = false ∧ Y.mer = 2 ∧ Y.dType = .date ∧ Y.fSec = 0 := by
      rw [hl, hrun]
      cases sep with
      | space => exact ⟨_, Z, rfl, Or.inl hZ.pType, rfl, rfl, rfl, hZ.bc, hZ.julian, hZ.mer, hZ.dType, hZ.fSec⟩
      | letterT =>
        have ht := field_t' (p := p) (order := order) (ft := ft) (i := 0 + F.length) (d := Z)
          (ty := clockField T) ((hm 14 (by decide)).trans (by decide)) (by
            rw [hft, hl, List.map_append, List.getElem?_append_right (by simp)]
            simp [clkFields, DateSep.fields]) (timeFollows_clock T)
        exact ⟨_, { Z with tMask := 0, pType := .time }, loop_cons ht, Or.inr rfl, rfl, rfl,
          rfl, hZ.bc, hZ.julian, hZ.mer, hZ.dType, hZ.fSec⟩
    rw [hY]
    have hf := field_clock (p := p) (order := order) (ft := ft) (i := i) (d := Y) (T := T) hT g1
      (by rw [g2]; exact (hm 14 (by decide)).trans (by decide)) (by rw [g2]; exact (hm _ (by decide)).trans (by decide))
      g9 g8
    by_cases ha : Accepted T
    · rw [if_pos ha] at hf
      rw [if_pos (show ClkAccepted (some (sep, T)) from ha), loop_cons hf]
      have hfm : ∀ k, 31744 &&& k = 0 → (withClock Y T).fMask &&& k = Z.fMask &&& k := by
        intro k hk
        show (Y.fMask ||| 31744) &&& k = _
        rw [Nat.and_or_distrib_right, hk, g2, Nat.or_zero]
      refine ⟨withClock Y T, ?_, ?_, ?_, ?_, g4.trans hZ.is2, g5, g6, g7, g8, ?_, ?_, rfl, rfl, rfl, rfl⟩
      · exact loop_tail p order ft (i + 1) (withClock Y T) mer bc
          ((hfm _ (by decide)).trans ((hm 512 (by decide)).trans (by decide)))
          ((hfm _ (by decide)).trans ((hm 262144 (by decide)).trans (by decide)))
      · show Y.tm.year = _; rw [g3]; exact hZ.year
      · show Y.tm.mon = _; rw [g3]; exact hZ.mon
      · show Y.tm.mday = _; rw [g3]; exact hZ.mday
      · exact (hfm _ (by decide)).trans ((hm 14 (by decide)).trans (by decide))
      · exact (hfm _ (by decide)).trans ((hm 32768 (by decide)).trans (by decide))
    · rw [if_neg ha] at hf
      obtain ⟨e, s, hf⟩ := hf
      rw [if_neg (show ¬ ClkAccepted (some (sep, T)) from ha)]
      exact ⟨_, _, loop_cons_err hf⟩

variable {clk : Option (DateSep × ClockText)} {mer : Option Bool} {text : Bytes} {cs : Caches} {u : TokenField} {bc : Bool}

/-- `Timestamp::try_from_str`. -/
theorem timestamp_any (hF : ReadsDay p order {} F fits ys m d) (hcs : cs.Ok) (hT : ClkOk clk)
    (hs : scan u text = .ok (F ++ (clkFields clk ++ (merFields mer ++ bcFields bc)))) :
    match namedDay ys m d bc, hourOf mer (clkH clk) with
    | some day, some k =>
      if ClkAccepted clk ∧ TsRange (instant day ⟨k, clkM clk, clkS clk, clkUs clk⟩) then
        Timestamp.tryFromStr p u cs text (-1) order = .ok ⟨instant day ⟨k, clkM clk, clkS clk, clkUs clk⟩⟩
      else (Timestamp.tryFromStr p u cs text (-1) order).IsErr
    | _, _ => (Timestamp.tryFromStr p u cs text (-1) order).IsErr := by
  have herr : ∀ e s, decodeDateTime p plainLook order
      (F ++ (clkFields clk ++ (merFields mer ++ bcFields bc))) ({}, ()) = (.err e, s) →
      (Timestamp.tryFromStr p u cs text (-1) order).IsErr := by
    rintro e ⟨d, w'⟩ hrun
    rw [timestamp_run p u hcs (-1) order hs hrun]; exact ⟨_, rfl⟩
  by_cases hfit : fits
  · have hloop := loop_any hF hfit mer bc hT (l := _) rfl
    by_cases hk : ClkAccepted clk
    · rw [if_pos hk] at hloop
      obtain ⟨X, hloop, x1, x2, x3, x4, x5, x6, x7, x8, x9, x10, x11, x12, x13, x14⟩ := hloop
      have hrun := run_form p order mer hloop hF.digits (hF.num hfit) x1 x2 x3 x4 x5 x6 x7 x8 x9 x10 x11
      cases hday : namedDay ys m d bc with
      | none =>
        rw [hday] at hrun
        obtain ⟨s, hrun⟩ := hrun
        exact herr _ _ hrun
      | some day =>
        cases hh : hourOf mer (clkH clk) with
        | none =>
          rw [hday, hh] at hrun
          obtain ⟨s, hrun⟩ := hrun
          exact herr _ _ hrun
        | some k =>
          rw [hday, hh] at hrun
          obtain ⟨hre, d, hrun, e1, e2, e3, e4, e5, e6, e7, e8⟩ := hrun
          simp only
          obtain ⟨b1, b2, b3, b4, b5⟩ := clk_bounds hT hk hh
          have hts := timestamp_ofDec p (t := ⟨k, clkM clk, clkS clk, clkUs clk⟩) e1 e2 e3 e4 e5 (e6.trans x12)
            (e7.trans x13) (e8.trans x14) hre
            (by simp only; omega) (by simp only; omega) (by simp only; omega) ⟨b4, b5⟩
          rw [timestamp_run p u hcs (-1) order hs hrun, Res.bind_ok]
          by_cases hd : TsRange (instant day ⟨k, clkM clk, clkS clk, clkUs clk⟩)
          · rw [if_pos hd] at hts
            rw [if_pos ⟨hk, hd⟩, hts, Res.bind_ok, timestamp_noTypmod]
          · rw [if_neg hd] at hts
            rw [if_neg (fun q => hd q.2)]
            obtain ⟨e, he⟩ := hts
            rw [he]; exact ⟨_, rfl⟩
    · rw [if_neg hk] at hloop
      obtain ⟨e, s, hloop⟩ := hloop
      have hE := herr _ _ (dateTime_err p order hloop)
      cases hday : namedDay ys m d bc with
      | none => exact hE
      | some day =>
        cases hh : hourOf mer (clkH clk) with
        | none => exact hE
        | some k => simp only; rw [if_neg (fun q => hk q.1)]; exact hE
  · obtain ⟨e, s, hloop⟩ := hF.err hfit ((F ++ (clkFields clk ++ (merFields mer ++ bcFields bc))).map Prod.fst) 0
      (clkFields clk ++ (merFields mer ++ bcFields bc))
    have hE := herr _ _ (dateTime_err p order hloop)
    cases hday : namedDay ys m d bc with
    | none => exact hE
    | some day =>
      cases hh : hourOf mer (clkH clk) with
      | none => exact hE
      | some k =>
        simp only
        rw [if_neg]
        · exact hE
        · rintro ⟨ha, hts⟩
          obtain ⟨b1, b2, b3, b4, b5⟩ := clk_bounds hT ha hh
          obtain ⟨hr, hb⟩ := hF.big hfit bc day hday
          have := dateRange_of_tsRange (t := ⟨k, clkM clk, clkS clk, clkUs clk⟩)
            (by simp only [Clock.micros]; omega) hts hr
          omega

/-- `Date::try_from_str`. -/
theorem date_any (hF : ReadsDay p order {} F fits ys m d) (hcs : cs.Ok) (hT : ClkOk clk)
    (hs : scan u text = .ok (F ++ (clkFields clk ++ (merFields mer ++ bcFields bc)))) :
    match namedDay ys m d bc, hourOf mer (clkH clk) with
    | some day, some _ =>
      if ClkAccepted clk ∧ DateRange (dayNumber day) then
        Date.tryFromStr p u cs text order = .ok ⟨dayNumber day⟩
      else (Date.tryFromStr p u cs text order).IsErr
    | _, _ => (Date.tryFromStr p u cs text order).IsErr := by
  have herr : ∀ e s, decodeDateTime p plainLook order
      (F ++ (clkFields clk ++ (merFields mer ++ bcFields bc))) ({}, ()) = (.err e, s) →
      (Date.tryFromStr p u cs text order).IsErr := by
    rintro e ⟨d, w'⟩ hrun
    rw [date_run p u hcs order hs hrun]; exact ⟨_, rfl⟩
  by_cases hfit : fits
  · have hloop := loop_any hF hfit mer bc hT (l := _) rfl
    by_cases hk : ClkAccepted clk
    · rw [if_pos hk] at hloop
      obtain ⟨X, hloop, x1, x2, x3, x4, x5, x6, x7, x8, x9, x10, x11, x12, x13, x14⟩ := hloop
      have hrun := run_form p order mer hloop hF.digits (hF.num hfit) x1 x2 x3 x4 x5 x6 x7 x8 x9 x10 x11
      cases hday : namedDay ys m d bc with
      | none =>
        rw [hday] at hrun
        obtain ⟨s, hrun⟩ := hrun
        exact herr _ _ hrun
      | some day =>
        cases hh : hourOf mer (clkH clk) with
        | none =>
          rw [hday, hh] at hrun
          obtain ⟨s, hrun⟩ := hrun
          exact herr _ _ hrun
        | some k =>
          rw [hday, hh] at hrun
          obtain ⟨hre, d, hrun, e1, e2, e3, e4, -⟩ := hrun
          simp only
          rw [date_run p u hcs order hs hrun, Res.bind_ok, date_ofDec p e1 e2 e3 e4 hre]
          by_cases hd : DateRange (dayNumber day)
          · rw [if_pos hd, if_pos ⟨hk, hd⟩]
          · rw [if_neg hd, if_neg (fun q => hd q.2)]
            exact ⟨_, rfl⟩
    · rw [if_neg hk] at hloop
      obtain ⟨e, s, hloop⟩ := hloop
      have hE := herr _ _ (dateTime_err p order hloop)
      cases hday : namedDay ys m d bc with
      | none => exact hE
      | some day =>
        cases hh : hourOf mer (clkH clk) with
        | none => exact hE
        | some k => simp only; rw [if_neg (fun q => hk q.1)]; exact hE
  · obtain ⟨e, s, hloop⟩ := hF.err hfit ((F ++ (clkFields clk ++ (merFields mer ++ bcFields bc))).map Prod.fst) 0
      (clkFields clk ++ (merFields mer ++ bcFields bc))
    have hE := herr _ _ (dateTime_err p order hloop)
    cases hday : namedDay ys m d bc with
    | none => exact hE
    | some day =>
      cases hh : hourOf mer (clkH clk) with
      | none => exact hE
      | some k =>
        simp only
        rw [if_neg]
        · exact hE
        · rintro ⟨-, hts⟩
          obtain ⟨hr, hb⟩ := hF.big hfit bc day hday
          rcases hb with hb | hb
          · exact not_dateRange_of_year hr (by omega) hts
          · exact not_dateRange_of_year' hr (by omega) hts

end

end Pg
