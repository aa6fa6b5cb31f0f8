import Verif.Lemmas.JulianFrac

/-! # Parsing Julian day numbers with a fraction -/

namespace Pg
open Spec

section
variable {p : Profile} {order : DateOrder} {J : JulianFrac} {bc : Bool} {u : TokenField} {cs : Caches}

theorem julian_instant (n : Nat) {us : Int} (h : 0 ≤ us ∧ us < 86400000000) :
    instant (julianYmd n) (clockOf us) = ((n : Int) - 2451545) * dayMicros + us := by
  unfold instant
  rw [julianYmd_number, clockOf_micros, Int.emod_eq_of_lt h.1 h.2]

theorem julianMicros_day {fs : Bytes} (h : Digits fs) (hl : fs.length ≤ 7) :
    0 ≤ julianMicros fs ∧ julianMicros fs < 86400000000 := by
  have := julianMicros_near h hl
  have := fracTen_bound h hl
  omega

/-- The decoder on a Julian day number with a fraction. -/
theorem run_julianFrac (hJ : J.day.Ok) (hd : Digits J.frac) (bc : Bool) :
    if value J.day.digits ≤ 2147483647 ∧ J.frac.length ≤ 7 then
      ∃ x, decodeDateTime p plainLook order (julianFracFields J ++ bcFields bc) ({}, ()) = (.ok (), (x, ())) ∧
        x.dType = .date ∧ x.tm.year = (julianYmd (value J.day.digits)).y ∧ x.tm.mon = (julianYmd (value J.day.digits)).m ∧
        x.tm.mday = (julianYmd (value J.day.digits)).d ∧ x.tm.hour = (clockOf (julianMicros J.frac)).h ∧
        x.tm.min = (clockOf (julianMicros J.frac)).mi ∧ x.tm.sec = (clockOf (julianMicros J.frac)).s ∧
        x.fSec = (clockOf (julianMicros J.frac)).us
    else ∃ e s, decodeDateTime p plainLook order (julianFracFields J ++ bcFields bc) ({}, ()) = (.err e, s) := by
  have hl := loop_julianFrac (p := p) (order := order) hJ hd ((julianFracFields J ++ bcFields bc).map Prod.fst) 0 (bcFields bc)
  by_cases hk : value J.day.digits ≤ 2147483647 ∧ J.frac.length ≤ 7
  · rw [if_pos hk] at hl ⊢
    have hb := julianMicros_day hd hk.2
    have hh : 0 ≤ (clockOf (julianMicros J.frac)).h := by unfold clockOf; simp only; omega
    obtain ⟨h, hh⟩ := Int.eq_ofNat_of_zero_le hh
    have ht := loop_tail p order ((julianFracFields J ++ bcFields bc).map Prod.fst) (0 + 2)
      (julianFracDec (j2dCore (value J.day.digits)) (clockOf (julianMicros J.frac))) none bc (by simp [julianFracDec])
      (by simp [julianFracDec])
    have hloop := hl.1.trans ht
    have hr := run_anyDate (X := julianFracDec (j2dCore (value J.day.digits)) (clockOf (julianMicros J.frac))) (h := h) none
      (julian_dateState (p := p) hk.1 bc) hloop rfl rfl rfl rfl rfl rfl (by simp [julianFracDec, julianDec]) rfl rfl rfl hh
    have hday : julianDay (value J.day.digits) bc = some (julianYmd (value J.day.digits)) := if_pos hk.1
    rw [hday] at hr
    obtain ⟨-, x, h1, h2, h3, h4, h5, h6, h7, h8, h9⟩ := hr
    exact ⟨x, h1, h2, h3, h4, h5, h6.trans hh.symm, h7, h8, h9⟩
  · rw [if_neg hk] at hl ⊢
    obtain ⟨⟨e, s, hl⟩, -⟩ := hl
    exact ⟨_, _, dateTime_err p order hl⟩

theorem julianFrac_text (J : JulianFrac) (bc : Bool) : J.bytes ++ bcMark bc = J.bytes ++ clkBytes none ++ bcMark bc := by
  simp [clkBytes]

/-- `Timestamp::try_from_str`. -/
theorem timestamp_julianFrac (hJ : J.day.Ok) (hd : Digits J.frac) (nf : J.frac ≠ []) (h40 : J.frac.length ≤ 40)
    (hcs : cs.Ok) :
    if J.frac.length ≤ 7 ∧ TsRange (((value J.day.digits : Int) - 2451545) * dayMicros + julianMicros J.frac) then
      Timestamp.tryFromStr p u cs (J.bytes ++ bcMark bc) (-1) order =
        .ok ⟨((value J.day.digits : Int) - 2451545) * dayMicros + julianMicros J.frac⟩
    else (Timestamp.tryFromStr p u cs (J.bytes ++ bcMark bc) (-1) order).IsErr := by
  have hs := scan_julianFrac u hJ hd nf h40 (clk := none) trivial bc
  rw [← julianFrac_text] at hs
  have hrun := run_julianFrac (p := p) (order := order) hJ hd bc
  by_cases hk : value J.day.digits ≤ 2147483647 ∧ J.frac.length ≤ 7
  · rw [if_pos hk] at hrun
    obtain ⟨x, h1, h2, h3, h4, h5, h6, h7, h8, h9⟩ := hrun
    have hb := julianMicros_day hd hk.2
    have hts := timestamp_ofDec p (t := clockOf (julianMicros J.frac)) h2 h3 h4 h5 h6 h7 h8 h9 (julianYmd_real _)
      (by unfold clockOf; simp only; omega) (by unfold clockOf; simp only; omega) (by unfold clockOf; simp only; omega)
      (by unfold clockOf; simp only; omega)
    rw [julian_instant _ hb] at hts
    rw [timestamp_run p u hcs (-1) order hs h1, Res.bind_ok]
    by_cases hr : TsRange (((value J.day.digits : Int) - 2451545) * dayMicros + julianMicros J.frac)
    · rw [if_pos hr] at hts
      rw [if_pos ⟨hk.2, hr⟩, hts, Res.bind_ok, timestamp_noTypmod]
    · rw [if_neg hr] at hts
      rw [if_neg (fun q => hr q.2)]
      obtain ⟨e, he⟩ := hts
      rw [he]; exact ⟨_, rfl⟩
  · rw [if_neg hk] at hrun
    obtain ⟨e, ⟨d, w⟩, hrun⟩ := hrun
    rw [if_neg]
    · rw [timestamp_run p u hcs (-1) order hs hrun]; exact ⟨_, rfl⟩
    · rintro ⟨hl, hr⟩
      have hb := julianMicros_day hd hl
      have : dayNumber lastTsDay.next = 106751983 := by decide
      have : (⟨0, 0, 0, 0⟩ : Clock).micros = 0 := rfl
      unfold TsRange instant dayMicros at hr
      omega

/-- `Date::try_from_str`. -/
theorem date_julianFrac (hJ : J.day.Ok) (hd : Digits J.frac) (nf : J.frac ≠ []) (h40 : J.frac.length ≤ 40) (hcs : cs.Ok) :
    if J.frac.length ≤ 7 ∧ DateRange ((value J.day.digits : Int) - 2451545) then
      Date.tryFromStr p u cs (J.bytes ++ bcMark bc) order = .ok ⟨(value J.day.digits : Int) - 2451545⟩
    else (Date.tryFromStr p u cs (J.bytes ++ bcMark bc) order).IsErr := by
  have hs := scan_julianFrac u hJ hd nf h40 (clk := none) trivial bc
  rw [← julianFrac_text] at hs
  have hrun := run_julianFrac (p := p) (order := order) hJ hd bc
  by_cases hk : value J.day.digits ≤ 2147483647 ∧ J.frac.length ≤ 7
  · rw [if_pos hk] at hrun
    obtain ⟨x, h1, h2, h3, h4, h5, -⟩ := hrun
    rw [date_run p u hcs order hs h1, Res.bind_ok, date_ofDec p h2 h3 h4 h5 (julianYmd_real _), julianYmd_number]
    by_cases hr : DateRange ((value J.day.digits : Int) - 2451545)
    · rw [if_pos hr, if_pos ⟨hk.2, hr⟩]
    · rw [if_neg hr, if_neg (fun q => hr q.2)]
      exact ⟨_, rfl⟩
  · rw [if_neg hk] at hrun
    obtain ⟨e, ⟨d, w⟩, hrun⟩ := hrun
    rw [if_neg]
    · rw [date_run p u hcs order hs hrun]; exact ⟨_, rfl⟩
    · rintro ⟨hl, hr⟩
      have : dayNumber lastDay = 2145031948 := by decide
      unfold DateRange at hr
      omega

/-- `Time::try_from_str`. -/
theorem time_julianFrac (hJ : J.day.Ok) (hd : Digits J.frac) (nf : J.frac ≠ []) (h40 : J.frac.length ≤ 40) (hcs : cs.Ok) :
    if J.frac.length ≤ 7 ∧ value J.day.digits ≤ 2147483647 then
      Time.tryFromStr p u cs J.bytes (-1) order = .ok ⟨julianMicros J.frac⟩
    else (Time.tryFromStr p u cs J.bytes (-1) order).IsErr := by
  have hs := scan_julianFrac u hJ hd nf h40 (clk := none) trivial false
  rw [← julianFrac_text] at hs
  simp only [bcMark, bcFields, clkFields, List.append_nil, Bool.false_eq_true, if_false] at hs
  have hl := loop_julianFrac (p := p) (order := order) hJ hd ((julianFracFields J).map Prod.fst) 0 []
  rw [List.append_nil] at hl
  by_cases hk : value J.day.digits ≤ 2147483647 ∧ J.frac.length ≤ 7
  · rw [if_pos hk] at hl
    rw [if_pos ⟨hk.2, hk.1⟩]
    have hb := julianMicros_day hd hk.2
    have hv := (julian_dateState (p := p) hk.1 false).valid
      (julianFracDec (j2dCore (value J.day.digits)) (clockOf (julianMicros J.frac))).tm (14 ||| 31744) rfl rfl rfl rfl
      (by simp [julianDec])
    have hday : julianDay (value J.day.digits) false = some (julianYmd (value J.day.digits)) := if_pos hk.1
    rw [hday] at hv
    obtain ⟨-, hv⟩ := hv
    obtain ⟨X, hX⟩ : ∃ X, X = julianFracDec (j2dCore (value J.day.digits)) (clockOf (julianMicros J.frac)) := ⟨_, rfl⟩
    have hl' := hl.2
    rw [← hX] at hl'
    have hfin : finishFields p X = (.ok (), { X with tm := { X.tm with
        year := (julianYmd (value J.day.digits)).y, mon := (julianYmd (value J.day.digits)).m,
        mday := (julianYmd (value J.day.digits)).d } }) := by
      have hv' : X.tm.validateDate p X.fMask X.isJulian X.is2 X.bc = .ok { X.tm with
        year := (julianYmd (value J.day.digits)).y, mon := (julianYmd (value J.day.digits)).m,
        mday := (julianYmd (value J.day.digits)).d } := by rw [hX]; exact hv
      have hmer : X.mer = 2 := by rw [hX]; rfl
      clear hX hl' hl
      obtain ⟨tm0, dType, fSec, fMask, tMask, pType, isJulian, is2, bc', mer', textMonth⟩ := X
      simp only at hv' hmer
      subst hmer
      unfold finishFields
      rw [St.get_bind]
      simp only
      rw [hv', St.lift_ok_bind, St.mod_bind, St.get_bind]
      simp [St.pure_run]
    have c1 : X.tm.hour = (clockOf (julianMicros J.frac)).h := by rw [hX]; rfl
    have c2 : X.tm.min = (clockOf (julianMicros J.frac)).mi := by rw [hX]; rfl
    have c3 : X.tm.sec = (clockOf (julianMicros J.frac)).s := by rw [hX]; rfl
    have c4 : X.fSec = (clockOf (julianMicros J.frac)).us := by rw [hX]; rfl
    have hrun : decodeTimeOnly p plainLook order (julianFracFields J) ({}, ()) = (.ok (), ({ X with tm := { X.tm with
        year := (julianYmd (value J.day.digits)).y, mon := (julianYmd (value J.day.digits)).m,
        mday := (julianYmd (value J.day.digits)).d } }, ())) := by
      unfold decodeTimeOnly
      have hll : timeOnlyLoop p plainLook order ((julianFracFields J).map Prod.fst) (julianFracFields J) 0 ({}, ()) =
        (.ok (), (X, ())) := hl'
      rw [St.bind_ok hll, St.bind_ok (noLook_run hfin), St.bind_ok (noLook_run (St.get_run _)), St.ite_run, if_neg]
      · rfl
      · intro hbad
        have := (badTimeOnly_iff (h := (clockOf (julianMicros J.frac)).h) (m := (clockOf (julianMicros J.frac)).mi)
          (s := (clockOf (julianMicros J.frac)).s) (f := (clockOf (julianMicros J.frac)).us) c1 c2 c3 c4).1 hbad
        revert this
        unfold clockOf
        simp only
        omega
    rw [time_run p u hcs (-1) order hs hrun, Res.bind_ok]
    have hft := time_fromPgtime p (tm := { X.tm with
        year := (julianYmd (value J.day.digits)).y, mon := (julianYmd (value J.day.digits)).m,
        mday := (julianYmd (value J.day.digits)).d }) (fs := X.fSec) c1 c2 c3 (by unfold clockOf; simp only; omega)
        (by unfold clockOf; simp only; omega) (by unfold clockOf; simp only; omega) (by rw [c4]; unfold clockOf; simp only; omega)
    have hval : (((clockOf (julianMicros J.frac)).h * 60 + (clockOf (julianMicros J.frac)).mi) * 60 +
        (clockOf (julianMicros J.frac)).s) * 1000000 + X.fSec = julianMicros J.frac := by
      rw [c4]; unfold clockOf; simp only; omega
    rw [hval] at hft
    simp only
    rw [hft]
    rfl
  · rw [if_neg hk] at hl
    rw [if_neg (fun q => hk ⟨q.2, q.1⟩)]
    obtain ⟨-, e, s, hl⟩ := hl
    have hrun : decodeTimeOnly p plainLook order (julianFracFields J) ({}, ()) = (.err e, s) := by
      unfold decodeTimeOnly
      rw [St.bind_err hl]
    obtain ⟨d, w⟩ := s
    rw [time_run p u hcs (-1) order hs hrun]
    exact ⟨_, rfl⟩

/-- A clock time after the fraction is refused. -/
theorem julianFrac_clock (hJ : J.day.Ok) (hd : Digits J.frac) (nf : J.frac ≠ []) (h40 : J.frac.length ≤ 40) (hcs : cs.Ok)
    {T : ClockText} (hT : T.Ok) (hc : T.colons = true) :
    (Timestamp.tryFromStr p u cs (J.bytes ++ 32 :: T.bytes ++ bcMark bc) (-1) order).IsErr ∧
    (Date.tryFromStr p u cs (J.bytes ++ 32 :: T.bytes ++ bcMark bc) order).IsErr := by
  have hs := scan_julianFrac u hJ hd nf h40 (clk := some (.space, T)) hT bc
  have e : clkBytes (some (.space, T)) = 32 :: T.bytes := rfl
  rw [e] at hs
  have ecf : clockField T = .time := by unfold clockField; rw [hc]; rfl
  have hrun : ∃ e s, decodeDateTime p plainLook order
      (julianFracFields J ++ (clkFields (some (.space, T)) ++ bcFields bc)) ({}, ()) = (.err e, s) := by
    have hl := loop_julianFrac (p := p) (order := order) hJ hd
      ((julianFracFields J ++ (clkFields (some (.space, T)) ++ bcFields bc)).map Prod.fst) 0
      (clkFields (some (.space, T)) ++ bcFields bc)
    by_cases hk : value J.day.digits ≤ 2147483647 ∧ J.frac.length ≤ 7
    · rw [if_pos hk] at hl
      have htok := timeToken_clock
        (d := julianFracDec (j2dCore (value J.day.digits)) (clockOf (julianMicros J.frac))) hT hc (Or.inl rfl)
      have hf : ∀ ft i, ∃ e s, dateTimeField p plainLook order ft i (.time, T.bytes)
          (julianFracDec (j2dCore (value J.day.digits)) (clockOf (julianMicros J.frac)), ()) = (.err e, s) := by
        intro ft i
        simp only [dateTimeField]
        by_cases hci : ClockInput T.h T.m T.s (clockUs T)
        · rw [if_pos hci] at htok
          rw [St.bind_ok (noLook_run htok)]
          exact ⟨_, _, noLook_run (addMask_err (show (31744 : Nat) &&& (14 ||| 31744) ≠ 0 by decide))⟩
        · rw [if_neg hci] at htok
          obtain ⟨e, s, htok⟩ := htok
          exact ⟨_, _, St.bind_err (noLook_run htok)⟩
      obtain ⟨e, s, hf⟩ := hf ((julianFracFields J ++ (clkFields (some (.space, T)) ++ bcFields bc)).map Prod.fst) (0 + 2)
      have h2 := hl.1
      have e2 : clkFields (some (.space, T)) ++ bcFields bc = (.time, T.bytes) :: bcFields bc := by
        simp [clkFields, DateSep.fields, ecf]
      rw [e2] at h2 hf ⊢
      exact ⟨_, _, dateTime_err p order (h2.trans (loop_cons_err hf))⟩
    · rw [if_neg hk] at hl
      obtain ⟨⟨e, s, hl⟩, -⟩ := hl
      exact ⟨_, _, dateTime_err p order hl⟩
  obtain ⟨e, ⟨d, w⟩, hrun⟩ := hrun
  constructor
  · rw [timestamp_run p u hcs (-1) order hs hrun]; exact ⟨_, rfl⟩
  · rw [date_run p u hcs order hs hrun]; exact ⟨_, rfl⟩

end
end Pg
