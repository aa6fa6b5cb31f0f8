import Verif.Lemmas.FormsText

/-! # Days read from any fields and checked in any way, with a clock time and the marks after them -/

namespace Pg
open Spec

/-- The state after the fields of a day; with the mark `BC` or without, as `b` says, the final check gives `day b`. -/
structure DateState (p : Profile) (X : Dec) (b : Bool) (day : Bool → Option YMD) : Prop where
  bc : X.bc = false
  mer : X.mer = 2
  dType : X.dType = .date
  pType : X.pType = .number
  mask : X.fMask &&& 294414 = 14
  hour : X.tm.hour = 0
  min : X.tm.min = 0
  sec : X.tm.sec = 0
  fSec : X.fSec = 0
  valid : ∀ (tm : PgTime) (m : Nat), tm.year = X.tm.year → tm.mon = X.tm.mon → tm.mday = X.tm.mday →
    tm.yday = X.tm.yday → m &&& 32782 = X.fMask &&& 32782 →
    match day b with
    | none => ∃ e, tm.validateDate p m X.isJulian X.is2 b = .err e
    | some c => c.Real ∧ tm.validateDate p m X.isJulian X.is2 b = .ok { tm with year := c.y, mon := c.m, mday := c.d }

theorem mask_of {f k : Nat} (h : f &&& 294414 = 14) (hk : 294414 &&& k = k) : f &&& k = 14 &&& k := by
  rw [← hk, ← Nat.and_assoc, h, hk]

/-- The fields `F` are read as a day if `fits`, and rejected otherwise; `d0` is the state before them. -/
structure ReadsDate (p : Profile) (order : DateOrder) (d0 : Dec) (F : List Field) (fits : Prop) (b : Bool) (day : Bool → Option YMD) :
    Prop where
  ok : fits → ∃ X, DateState p X b day ∧ ∀ ft i rest,
    dateTimeLoop p plainLook order ft (F ++ rest) i (d0, ()) =
      dateTimeLoop p plainLook order ft rest (i + F.length) (X, ())
  err : ¬ fits → ∀ ft i rest, ∃ e s, dateTimeLoop p plainLook order ft (F ++ rest) i (d0, ()) = (.err e, s)
  big : ¬ fits → ∀ c, day b = some c → c.Real ∧ (2147483647 ≤ c.y ∨ c.y ≤ -2147483646)

section
variable {p : Profile} {order : DateOrder} {F : List Field} {fits : Prop} {day : Bool → Option YMD} {bc : Bool}

/-- Reading a day, a clock time and the marks after them. -/
theorem loop_anyDate (hF : ReadsDate p order {} F fits bc day) (hfit : fits) (mer : Option Bool)
    {clk : Option (DateSep × ClockText)} (hT : ClkOk clk) {l : List Field}
    (hl : l = F ++ (clkFields clk ++ (merFields mer ++ bcFields bc))) :
    if ClkAccepted clk then
      ∃ Z X : Dec, DateState p Z bc day ∧ dateTimeLoop p plainLook order (l.map Prod.fst) l 0 ({}, ()) =
          (.ok (), (withBc (withMer X mer) bc, ())) ∧
        X.tm.year = Z.tm.year ∧ X.tm.mon = Z.tm.mon ∧ X.tm.mday = Z.tm.mday ∧ X.tm.yday = Z.tm.yday ∧
        X.is2 = Z.is2 ∧ X.isJulian = Z.isJulian ∧ X.fMask &&& 32782 = Z.fMask &&& 32782 ∧ X.bc = false ∧
        X.mer = 2 ∧ X.dType = .date ∧
        X.tm.hour = clkH clk ∧ X.tm.min = clkM clk ∧ X.tm.sec = clkS clk ∧ X.fSec = clkUs clk
    else ∃ e s, dateTimeLoop p plainLook order (l.map Prod.fst) l 0 ({}, ()) = (.err e, s) := by
  obtain ⟨ft, hft⟩ : ∃ ft, ft = l.map Prod.fst := ⟨_, rfl⟩
  rw [← hft]
  obtain ⟨Z, hZ, hrun⟩ := hF.ok hfit
  have hm := fun k => mask_of (k := k) hZ.mask
  cases clk with
  | none =>
    rw [if_pos (show ClkAccepted none from trivial)]
    refine ⟨Z, Z, hZ, ?_, rfl, rfl, rfl, rfl, rfl, rfl, rfl, hZ.bc, hZ.mer, hZ.dType, hZ.hour, hZ.min, hZ.sec, hZ.fSec⟩
    rw [hl]
    rw [hrun]
    exact loop_tail p order ft _ Z mer bc ((hm 512 (by decide)).trans (by decide))
      ((hm 262144 (by decide)).trans (by decide))
  | some st =>
    obtain ⟨sep, T⟩ := st
    obtain ⟨i, Y, hY, g1, g2, g3, g4, g5, g6, g7, g8, g9⟩ : ∃ i Y,
        dateTimeLoop p plainLook order ft l 0 ({}, ()) =
          dateTimeLoop p plainLook order ft ((clockField T, T.bytes) :: (merFields mer ++ bcFields bc)) i (Y, ()) ∧
        (Y.pType = .number ∨ Y.pType = .time) ∧ Y.fMask = Z.fMask ∧ Y.tm = Z.tm ∧
        Y.is2 = Z.is2 ∧
        Y.bc = false ∧ Y.isJulian = Z.isJulian ∧ Y.mer = 2 ∧ Y.dType = .date ∧ Y.fSec = 0 := by
      rw [hl, hrun]
      cases sep with
      | space => exact ⟨_, Z, rfl, Or.inl hZ.pType, rfl, rfl, rfl, hZ.bc, rfl, hZ.mer, hZ.dType, hZ.fSec⟩
      | letterT =>
        have ht := field_t' (p := p) (order := order) (ft := ft) (i := 0 + F.length) (d := Z)
          (ty := clockField T) ((hm 14 (by decide)).trans (by decide)) (by
            rw [hft, hl, List.map_append, List.getElem?_append_right (by simp)]
            simp [clkFields, DateSep.fields]) (timeFollows_clock T)
        exact ⟨_, { Z with tMask := 0, pType := .time }, loop_cons ht, Or.inr rfl, rfl, rfl,
          rfl, hZ.bc, rfl, hZ.mer, hZ.dType, hZ.fSec⟩
    rw [hY]
    have hf := field_clock (p := p) (order := order) (ft := ft) (i := i) (d := Y) (T := T) hT g1
      (by rw [g2]; exact (hm 14 (by decide)).trans (by decide)) (by rw [g2]; exact (hm _ (by decide)).trans (by decide))
      g9 g8
    by_cases ha : Accepted T
    · rw [if_pos ha] at hf
      rw [if_pos (show ClkAccepted (some (sep, T)) from ha), loop_cons hf]
      have hfm : ∀ k, 31744 &&& k = 0 → (withClock Y T).fMask &&& k = Z.fMask &&& k := by
        intro k hk
        show (Y.fMask ||| 31744) &&& k = _
        rw [Nat.and_or_distrib_right, hk, g2, Nat.or_zero]
      refine ⟨Z, withClock Y T, hZ, ?_, ?_, ?_, ?_, ?_, g4, g6, ?_, g5, g7, g8, rfl, rfl, rfl, rfl⟩
      · exact loop_tail p order ft (i + 1) (withClock Y T) mer bc
          ((hfm _ (by decide)).trans ((hm 512 (by decide)).trans (by decide)))
          ((hfm _ (by decide)).trans ((hm 262144 (by decide)).trans (by decide)))
      · show Y.tm.year = _; rw [g3]
      · show Y.tm.mon = _; rw [g3]
      · show Y.tm.mday = _; rw [g3]
      · show Y.tm.yday = _; rw [g3]
      · exact hfm _ (by decide)
    · rw [if_neg ha] at hf
      obtain ⟨e, s, hf⟩ := hf
      rw [if_neg (show ¬ ClkAccepted (some (sep, T)) from ha)]
      exact ⟨_, _, loop_cons_err hf⟩

theorem dateTime_finErr {l : List Field} {Y s : Dec} {e : Err}
    (hl : dateTimeLoop p plainLook order (l.map Prod.fst) l 0 ({}, ()) = (.ok (), (Y, ())))
    (hf : finishFields p Y = (.err e, s)) : decodeDateTime p plainLook order l ({}, ()) = (.err e, (s, ())) := by
  unfold decodeDateTime
  rw [St.bind_ok hl, St.bind_err (noLook_run hf)]

theorem dateTime_finOk {l : List Field} {Y s : Dec}
    (hl : dateTimeLoop p plainLook order (l.map Prod.fst) l 0 ({}, ()) = (.ok (), (Y, ())))
    (hf : finishFields p Y = (.ok (), s)) (hm : s.fMask &&& 14 = 14) :
    decodeDateTime p plainLook order l ({}, ()) = (.ok (), (s, ())) := by
  unfold decodeDateTime
  rw [St.bind_ok hl, St.bind_ok (noLook_run hf), St.bind_ok (noLook_run (St.get_run _)), St.ite_run,
    if_neg (by simp [hm])]
  rfl

/-- The number of `AM` or `PM`, 2 if there is none. -/
def merOf : Option Bool → Int
  | none => 2
  | some pm => merVal pm

/-- The end of `decode_date_time`. -/
theorem run_anyDate (mer : Option Bool) {l : List Field} {Z X : Dec} {h : Nat} (hZ : DateState p Z bc day)
    (hl : dateTimeLoop p plainLook order (l.map Prod.fst) l 0 ({}, ()) = (.ok (), (withBc (withMer X mer) bc, ())))
    (h1 : X.tm.year = Z.tm.year) (h2 : X.tm.mon = Z.tm.mon) (h3 : X.tm.mday = Z.tm.mday) (h4 : X.tm.yday = Z.tm.yday)
    (h5 : X.is2 = Z.is2) (h6 : X.isJulian = Z.isJulian) (h7 : X.fMask &&& 32782 = Z.fMask &&& 32782)
    (hbc : X.bc = false) (hmer : X.mer = 2) (h8 : X.dType = .date) (hh : X.tm.hour = h) :
    match day bc, hourOf mer h with
    | some c, some k => c.Real ∧ ∃ x, decodeDateTime p plainLook order l ({}, ()) = (.ok (), (x, ())) ∧
        x.dType = .date ∧ x.tm.year = c.y ∧ x.tm.mon = c.m ∧ x.tm.mday = c.d ∧ x.tm.hour = k ∧
        x.tm.min = X.tm.min ∧ x.tm.sec = X.tm.sec ∧ x.fSec = X.fSec
    | _, _ => ∃ e s, decodeDateTime p plainLook order l ({}, ()) = (.err e, s) := by
  obtain ⟨Y, hY⟩ : ∃ Y, Y = withBc (withMer X mer) bc := ⟨_, rfl⟩
  have e : Y.tm = X.tm ∧ Y.is2 = Z.is2 ∧ Y.bc = bc ∧ Y.isJulian = Z.isJulian ∧
      Y.mer = merOf mer ∧
      Y.dType = .date ∧ Y.fSec = X.fSec ∧ Y.fMask &&& 32782 = Z.fMask &&& 32782 := by
    subst hY
    have hw : ∀ k, 512 &&& k = 0 → (withMer X mer).fMask &&& k = X.fMask &&& k := by
      intro k hk
      cases mer with
      | none => rfl
      | some pm =>
        show (X.fMask ||| 512) &&& k = _
        rw [Nat.and_or_distrib_right, hk, Nat.or_zero]
    have hb : (withMer X mer).tm = X.tm ∧ (withMer X mer).is2 = X.is2 ∧ (withMer X mer).isJulian = X.isJulian ∧
      (withMer X mer).bc = X.bc ∧ (withMer X mer).dType = X.dType ∧ (withMer X mer).fSec = X.fSec ∧
      (withMer X mer).mer = merOf mer := by
      cases mer with
      | none => exact ⟨rfl, rfl, rfl, rfl, rfl, rfl, hmer⟩
      | some pm => exact ⟨rfl, rfl, rfl, rfl, rfl, rfl, rfl⟩
    obtain ⟨b1, b2, b3, b4, b5, b6, b7⟩ := hb
    cases bc
    · exact ⟨b1, b2.trans h5, b4.trans hbc, b3.trans h6, b7, b5.trans h8, b6, (hw _ (by decide)).trans h7⟩
    · refine ⟨b1, b2.trans h5, rfl, b3.trans h6, b7, b5.trans h8, b6, ?_⟩
      show ((withMer X mer).fMask ||| 262144) &&& 32782 = _
      rw [Nat.and_or_distrib_right, hw _ (by decide), h7]
      simp
  obtain ⟨e1, e2, e3, e4, e5, e6, e7, e8⟩ := e
  rw [← hY] at hl
  have e14 : Y.fMask &&& 14 = 14 := by
    have h14 : Z.fMask &&& 14 = 14 := (mask_of hZ.mask (k := 14) (by decide)).trans (by decide)
    have : (Y.fMask &&& 32782) &&& 14 = (Z.fMask &&& 32782) &&& 14 := by rw [e8]
    rw [Nat.and_assoc, Nat.and_assoc] at this
    exact this.trans h14
  have hv := hZ.valid Y.tm Y.fMask (by rw [e1, h1]) (by rw [e1, h2]) (by rw [e1, h3]) (by rw [e1, h4]) e8
  rw [← e4, ← e2, ← e3] at hv
  have hday : ∀ o, day Y.bc = o → day bc = o := fun o h => by rw [← e3]; exact h
  cases hd : day Y.bc with
  | none =>
    rw [hday _ hd]
    rw [hd] at hv
    obtain ⟨er, hv⟩ := hv
    have hf : finishFields p Y = (.err er, Y) := by
      unfold finishFields
      rw [St.get_bind, hv]
      rfl
    exact ⟨_, _, dateTime_finErr hl hf⟩
  | some c =>
    rw [hday _ hd]
    rw [hd] at hv
    obtain ⟨hr, hv⟩ := hv
    cases mer with
    | none =>
      have hf : finishFields p Y = (.ok (), { Y with tm := { Y.tm with year := c.y, mon := c.m, mday := c.d } }) := by
        obtain ⟨tm0, dType, fSec, fMask, tMask, pType, isJulian, is2, bc', mer', textMonth⟩ := Y
        simp only at hv e5
        subst e5
        unfold finishFields
        rw [St.get_bind]
        simp only
        rw [hv, St.lift_ok_bind, St.mod_bind, St.get_bind]
        simp [St.pure_run, merOf]
      exact ⟨hr, _, dateTime_finOk hl hf e14, e6, rfl, rfl, rfl, by rw [← hh, ← e1], by rw [← e1], by rw [← e1], e7⟩
    | some pm =>
      have hfin := finish_mer p pm (d := Y) (h := h) hv e5 (by rw [← hh, ← e1])
      simp only [hourOf]
      cases hk24 : hour24 pm h with
      | none =>
        rw [hk24] at hfin
        obtain ⟨s, hfin⟩ := hfin
        exact ⟨_, _, dateTime_finErr hl hfin⟩
      | some k =>
        rw [hk24] at hfin
        simp only at hfin ⊢
        exact ⟨hr, _, dateTime_finOk hl hfin e14, e6, rfl, rfl, rfl, rfl, by rw [← e1], by rw [← e1], e7⟩

variable {clk : Option (DateSep × ClockText)} {mer : Option Bool} {text : Bytes} {cs : Caches} {u : TokenField}

/-- `Timestamp::try_from_str`. -/
theorem timestamp_anyDate (hF : ReadsDate p order {} F fits bc day) (hcs : cs.Ok) (hT : ClkOk clk)
    (hs : scan u text = .ok (F ++ (clkFields clk ++ (merFields mer ++ bcFields bc)))) :
    match day bc, hourOf mer (clkH clk) with
    | some c, some k =>
      if ClkAccepted clk ∧ TsRange (instant c ⟨k, clkM clk, clkS clk, clkUs clk⟩) then
        Timestamp.tryFromStr p u cs text (-1) order = .ok ⟨instant c ⟨k, clkM clk, clkS clk, clkUs clk⟩⟩
      else (Timestamp.tryFromStr p u cs text (-1) order).IsErr
    | _, _ => (Timestamp.tryFromStr p u cs text (-1) order).IsErr := by
  have herr : ∀ e s, decodeDateTime p plainLook order
      (F ++ (clkFields clk ++ (merFields mer ++ bcFields bc))) ({}, ()) = (.err e, s) →
      (Timestamp.tryFromStr p u cs text (-1) order).IsErr := by
    rintro e ⟨d, w'⟩ hrun
    rw [timestamp_run p u hcs (-1) order hs hrun]; exact ⟨_, rfl⟩
  by_cases hfit : fits
  · have hloop := loop_anyDate hF hfit mer hT (l := _) rfl
    by_cases hk : ClkAccepted clk
    · rw [if_pos hk] at hloop
      obtain ⟨Z, X, hZ, hloop, x1, x2, x3, x4, x5, x6, x7, x8, x9, x10, x11, x12, x13, x14⟩ := hloop
      have hrun := run_anyDate mer hZ hloop x1 x2 x3 x4 x5 x6 x7 x8 x9 x10 x11
      cases hday : day bc with
      | none =>
        rw [hday] at hrun
        obtain ⟨e, s, hrun⟩ := hrun
        exact herr _ _ hrun
      | some c =>
        cases hh : hourOf mer (clkH clk) with
        | none =>
          rw [hday, hh] at hrun
          obtain ⟨e, s, hrun⟩ := hrun
          exact herr _ _ hrun
        | some k =>
          rw [hday, hh] at hrun
          obtain ⟨hre, d, hrun, e1, e2, e3, e4, e5, e6, e7, e8⟩ := hrun
          simp only
          obtain ⟨b1, b2, b3, b4, b5⟩ := clk_bounds hT hk hh
          have hts := timestamp_ofDec p (t := ⟨k, clkM clk, clkS clk, clkUs clk⟩) e1 e2 e3 e4 e5 (e6.trans x12)
            (e7.trans x13) (e8.trans x14) hre
            (by simp only; omega) (by simp only; omega) (by simp only; omega) ⟨b4, b5⟩
          rw [timestamp_run p u hcs (-1) order hs hrun, Res.bind_ok]
          by_cases hd : TsRange (instant c ⟨k, clkM clk, clkS clk, clkUs clk⟩)
          · rw [if_pos hd] at hts
            rw [if_pos ⟨hk, hd⟩, hts, Res.bind_ok, timestamp_noTypmod]
          · rw [if_neg hd] at hts
            rw [if_neg (fun q => hd q.2)]
            obtain ⟨e, he⟩ := hts
            rw [he]; exact ⟨_, rfl⟩
    · rw [if_neg hk] at hloop
      obtain ⟨e, s, hloop⟩ := hloop
      have hE := herr _ _ (dateTime_err p order hloop)
      cases hday : day bc with
      | none => exact hE
      | some c =>
        cases hh : hourOf mer (clkH clk) with
        | none => exact hE
        | some k => simp only; rw [if_neg (fun q => hk q.1)]; exact hE
  · obtain ⟨e, s, hloop⟩ := hF.err hfit ((F ++ (clkFields clk ++ (merFields mer ++ bcFields bc))).map Prod.fst) 0
      (clkFields clk ++ (merFields mer ++ bcFields bc))
    have hE := herr _ _ (dateTime_err p order hloop)
    cases hday : day bc with
    | none => exact hE
    | some c =>
      cases hh : hourOf mer (clkH clk) with
      | none => exact hE
      | some k =>
        simp only
        rw [if_neg]
        · exact hE
        · rintro ⟨ha, hts⟩
          obtain ⟨b1, b2, b3, b4, b5⟩ := clk_bounds hT ha hh
          obtain ⟨hr, hb⟩ := hF.big hfit c hday
          have := dateRange_of_tsRange (t := ⟨k, clkM clk, clkS clk, clkUs clk⟩)
            (by simp only [Clock.micros]; omega) hts hr
          omega

/-- `Date::try_from_str`. -/
theorem date_anyDate (hF : ReadsDate p order {} F fits bc day) (hcs : cs.Ok) (hT : ClkOk clk)
    (hs : scan u text = .ok (F ++ (clkFields clk ++ (merFields mer ++ bcFields bc)))) :
    match day bc, hourOf mer (clkH clk) with
    | some c, some _ =>
      if ClkAccepted clk ∧ DateRange (dayNumber c) then
        Date.tryFromStr p u cs text order = .ok ⟨dayNumber c⟩
      else (Date.tryFromStr p u cs text order).IsErr
    | _, _ => (Date.tryFromStr p u cs text order).IsErr := by
  have herr : ∀ e s, decodeDateTime p plainLook order
      (F ++ (clkFields clk ++ (merFields mer ++ bcFields bc))) ({}, ()) = (.err e, s) →
      (Date.tryFromStr p u cs text order).IsErr := by
    rintro e ⟨d, w'⟩ hrun
    rw [date_run p u hcs order hs hrun]; exact ⟨_, rfl⟩
  by_cases hfit : fits
  · have hloop := loop_anyDate hF hfit mer hT (l := _) rfl
    by_cases hk : ClkAccepted clk
    · rw [if_pos hk] at hloop
      obtain ⟨Z, X, hZ, hloop, x1, x2, x3, x4, x5, x6, x7, x8, x9, x10, x11, x12, x13, x14⟩ := hloop
      have hrun := run_anyDate mer hZ hloop x1 x2 x3 x4 x5 x6 x7 x8 x9 x10 x11
      cases hday : day bc with
      | none =>
        rw [hday] at hrun
        obtain ⟨e, s, hrun⟩ := hrun
        exact herr _ _ hrun
      | some c =>
        cases hh : hourOf mer (clkH clk) with
        | none =>
          rw [hday, hh] at hrun
          obtain ⟨e, s, hrun⟩ := hrun
          exact herr _ _ hrun
        | some k =>
          rw [hday, hh] at hrun
          obtain ⟨hre, d, hrun, e1, e2, e3, e4, -⟩ := hrun
          simp only
          rw [date_run p u hcs order hs hrun, Res.bind_ok, date_ofDec p e1 e2 e3 e4 hre]
          by_cases hd : DateRange (dayNumber c)
          · rw [if_pos hd, if_pos ⟨hk, hd⟩]
          · rw [if_neg hd, if_neg (fun q => hd q.2)]
            exact ⟨_, rfl⟩
    · rw [if_neg hk] at hloop
      obtain ⟨e, s, hloop⟩ := hloop
      have hE := herr _ _ (dateTime_err p order hloop)
      cases hday : day bc with
      | none => exact hE
      | some c =>
        cases hh : hourOf mer (clkH clk) with
        | none => exact hE
        | some k => simp only; rw [if_neg (fun q => hk q.1)]; exact hE
  · obtain ⟨e, s, hloop⟩ := hF.err hfit ((F ++ (clkFields clk ++ (merFields mer ++ bcFields bc))).map Prod.fst) 0
      (clkFields clk ++ (merFields mer ++ bcFields bc))
    have hE := herr _ _ (dateTime_err p order hloop)
    cases hday : day bc with
    | none => exact hE
    | some c =>
      cases hh : hourOf mer (clkH clk) with
      | none => exact hE
      | some k =>
        simp only
        rw [if_neg]
        · exact hE
        · rintro ⟨-, hts⟩
          obtain ⟨hr, hb⟩ := hF.big hfit c hday
          rcases hb with hb | hb
          · exact not_dateRange_of_year hr (by omega) hts
          · exact not_dateRange_of_year' hr (by omega) hts

end

end Pg
