import Verif.Lemmas.LabelClockRun

/-! # A time of day read from a text with a day -/

namespace Pg
open Spec

section
variable {p : Profile} {order : DateOrder} {day : Bool → Option YMD} {bc : Bool}

/-- The end of both decoders: the day is checked and the hour is moved by `AM` or `PM`. -/
theorem finish_anyDate (mer : Option Bool) {Z X Y : Dec} {h : Nat} (hZ : DateState p Z bc day)
    (hY : Y = withBc (withMer X mer) bc)
    (h1 : X.tm.year = Z.tm.year) (h2 : X.tm.mon = Z.tm.mon) (h3 : X.tm.mday = Z.tm.mday) (h4 : X.tm.yday = Z.tm.yday)
    (h5 : X.is2 = Z.is2) (h6 : X.isJulian = Z.isJulian) (h7 : X.fMask &&& 32782 = Z.fMask &&& 32782)
    (hbc : X.bc = false) (hmer : X.mer = 2) (hh : X.tm.hour = h) :
    match day bc, hourOf mer h with
    | some _, some k => ∃ x, finishFields p Y = (.ok (), x) ∧
        x.tm.hour = k ∧ x.tm.min = X.tm.min ∧ x.tm.sec = X.tm.sec ∧ x.fSec = X.fSec
    | _, _ => ∃ e s, finishFields p Y = (.err e, s) := by
  have e : Y.tm = X.tm ∧ Y.is2 = Z.is2 ∧ Y.bc = bc ∧ Y.isJulian = Z.isJulian ∧ Y.mer = merOf mer ∧
      Y.fSec = X.fSec ∧ Y.fMask &&& 32782 = Z.fMask &&& 32782 := by
    subst hY
    have hw : ∀ k, 512 &&& k = 0 → (withMer X mer).fMask &&& k = X.fMask &&& k := by
      intro k hk
      cases mer with
      | none => rfl
      | some pm =>
        show (X.fMask ||| 512) &&& k = _
        rw [Nat.and_or_distrib_right, hk, Nat.or_zero]
    have hb : (withMer X mer).tm = X.tm ∧ (withMer X mer).is2 = X.is2 ∧ (withMer X mer).isJulian = X.isJulian ∧
      (withMer X mer).bc = X.bc ∧ (withMer X mer).fSec = X.fSec ∧ (withMer X mer).mer = merOf mer := by
      cases mer with
      | none => exact ⟨rfl, rfl, rfl, rfl, rfl, hmer⟩
      | some pm => exact ⟨rfl, rfl, rfl, rfl, rfl, rfl⟩
    obtain ⟨b1, b2, b3, b4, b6, b7⟩ := hb
    cases bc
    · exact ⟨b1, b2.trans h5, b4.trans hbc, b3.trans h6, b7, b6, (hw _ (by decide)).trans h7⟩
    · refine ⟨b1, b2.trans h5, rfl, b3.trans h6, b7, b6, ?_⟩
      show ((withMer X mer).fMask ||| 262144) &&& 32782 = _
      rw [Nat.and_or_distrib_right, hw _ (by decide), h7]
      simp
  clear hY
  obtain ⟨e1, e2, e3, e4, e5, e7, e8⟩ := e
  have hv := hZ.valid Y.tm Y.fMask (by rw [e1, h1]) (by rw [e1, h2]) (by rw [e1, h3]) (by rw [e1, h4]) e8
  rw [← e4, ← e2, ← e3] at hv
  have hday : ∀ o, day Y.bc = o → day bc = o := fun o h => by rw [← e3]; exact h
  cases hd : day Y.bc with
  | none =>
    rw [hday _ hd]
    rw [hd] at hv
    obtain ⟨er, hv⟩ := hv
    refine ⟨er, Y, ?_⟩
    unfold finishFields
    rw [St.get_bind, hv]
    rfl
  | some c =>
    rw [hday _ hd]
    rw [hd] at hv
    obtain ⟨hr, hv⟩ := hv
    cases mer with
    | none =>
      have hf : finishFields p Y = (.ok (), { Y with tm := { Y.tm with year := c.y, mon := c.m, mday := c.d } }) := by
        obtain ⟨tm0, dType, fSec, fMask, tMask, pType, isJulian, is2, bc', mer', textMonth⟩ := Y
        simp only at hv e5
        subst e5
        unfold finishFields
        rw [St.get_bind]
        simp only
        rw [hv, St.lift_ok_bind, St.mod_bind, St.get_bind]
        simp [St.pure_run, merOf]
      exact ⟨_, hf, by rw [← hh, ← e1], by rw [← e1], by rw [← e1], e7⟩
    | some pm =>
      have hfin := finish_mer p pm (d := Y) (h := h) hv e5 (by rw [← hh, ← e1])
      simp only [hourOf]
      cases hk24 : hour24 pm h with
      | none =>
        rw [hk24] at hfin
        obtain ⟨s, hfin⟩ := hfin
        exact ⟨_, _, hfin⟩
      | some k =>
        rw [hk24] at hfin
        simp only at hfin ⊢
        exact ⟨_, hfin, rfl, by rw [← e1], by rw [← e1], e7⟩

theorem loopT_next {ft : List TokenField} {f : Field} {fs : List Field}
    {i : Nat} {s s' : Dec × Unit} (h : timeOnlyField p plainLook order ft i f s = (.ok (), s')) :
    timeOnlyLoop p plainLook order ft (f :: fs) i s = timeOnlyLoop p plainLook order ft fs (i + 1) s' := by
  rw [timeOnlyLoop, St.bind_ok h]

theorem loopT_err {ft : List TokenField} {f : Field} {fs : List Field}
    {i : Nat} {s s' : Dec × Unit} {e : Err} (h : timeOnlyField p plainLook order ft i f s = (.err e, s')) :
    timeOnlyLoop p plainLook order ft (f :: fs) i s = (.err e, s') := by
  rw [timeOnlyLoop, St.bind_err h]

/-- The mark `BC` in a time of day. -/
theorem fieldT_bc {ft : List TokenField} {i : Nat} {d : Dec} (hm : d.fMask &&& 262144 = 0) :
    timeOnlyField p plainLook order ft i (.string, b!"bc") (d, ()) =
      (.ok (), ({ d with bc := true, tMask := 262144, fMask := d.fMask ||| 262144 }, ())) := by
  have hl : lookDate plainLook i b!"bc" (d, ()) = (.ok (.adbc, 1), (d, ())) := by
    have : searchDate b!"bc" = .ok (some ⟨b!"bc", .adbc, 1⟩) := by decide +kernel
    unfold lookDate plainLook
    simp only [this]
    rfl
  have ha : wordActionT ft i .adbc 1 d = (.ok (), { d with bc := true, tMask := 262144 }) := by
    unfold wordActionT
    rw [St.mod_bind]
    rfl
  have e : wordTokenT plainLook ft i b!"bc" (d, ()) = (.ok false, ({ d with bc := true, tMask := 262144 }, ())) := by
    unfold wordTokenT
    rw [St.bind_ok hl]
    simp only
    rw [St.ite_run, if_neg (by decide), St.bind_ok (noLook_run ha)]
    rfl
  unfold timeOnlyField
  simp only
  rw [St.bind_ok e]
  simp only [Bool.false_eq_true, if_false]
  rw [noLook_run (addMask_run (by rw [Nat.and_comm]; exact hm))]

/-- The marks after a clock time. -/
theorem loopT_tail (ft : List TokenField) (i : Nat) (X : Dec) (mer : Option Bool) (bc : Bool)
    (h1 : X.fMask &&& 512 = 0) (h2 : X.fMask &&& 262144 = 0) :
    timeOnlyLoop p plainLook order ft (merFields mer ++ bcFields bc) i (X, ()) =
      (.ok (), (withBc (withMer X mer) bc, ())) := by
  have hbc : ∀ (d : Dec) j, d.fMask &&& 262144 = 0 →
      timeOnlyLoop p plainLook order ft (bcFields bc) j (d, ()) = (.ok (), (withBc d bc, ())) := by
    intro d j hd
    cases bc
    · rfl
    · show timeOnlyLoop p plainLook order ft [(.string, b!"bc")] j (d, ()) = _
      rw [loopT_next (fieldT_bc hd)]
      rfl
  cases mer with
  | none => exact hbc X i h2
  | some pm =>
    show timeOnlyLoop p plainLook order ft ((.string, merWord pm) :: bcFields bc) i (X, ()) = _
    rw [loopT_next (fieldT_mer pm h1)]
    exact hbc (withMer X (some pm)) (i + 1) (by
      show (X.fMask ||| 512) &&& 262144 = 0
      rw [Nat.and_or_distrib_right, h2]; rfl)

variable {x : Nat} {a b c : Bytes} {T : ClockText}

/-- The day before a clock time. -/
theorem fieldT_day {ft : List TokenField} (hD : (DayText.numeric x a b c).Ok) (hl : 2 ≤ ft.length)
    (h1 : ft[1]? = some .time) :
    if DayFits order (.numeric x a b c) then
      timeOnlyField p plainLook order ft 0 (.date, (DayText.numeric x a b c).bytes) ({}, ()) =
        (.ok (), (dateDec (dayNums order (.numeric x a b c)), ()))
    else ∃ s, timeOnlyField p plainLook order ft 0 (.date, (DayText.numeric x a b c).bytes) ({}, ()) =
      (.err .overflow, s) := by
  have hk : DayFits order (.numeric x a b c) ↔ NumOk a ∧ NumOk b ∧ NumOk c := (assign3_all (P := NumOk)).symm
  obtain ⟨hx, ha, hb, hc, h3⟩ := hD
  have hdec := decodeDate_three order (d := x) (e := x) hx hx ha.1 (DigitsOf.ne ha (by omega)) hb.1
    (DigitsOf.ne hb (by omega)) hc.1 (DigitsOf.ne hc (by omega)) (fun _ => h3) {} rfl
    (n := assign3 order (decide (3 ≤ a.length)) a b c) rfl
  have e : (DayText.numeric x a b c).bytes = a ++ x :: (b ++ x :: c) := by
    simp [DayText.bytes, numericDate]
  have et : dateTokenT plainLook order ft 0 (a ++ x :: (b ++ x :: c)) ({}, ()) =
      decodeDate plainLook (a ++ x :: (b ++ x :: c)) order ({}, ()) := by
    unfold dateTokenT
    rw [St.ite_run, if_pos ⟨rfl, hl, Or.inr h1⟩]
  rw [e]
  unfold timeOnlyField
  simp only
  by_cases hn : NumOk a ∧ NumOk b ∧ NumOk c
  · rw [if_pos hn] at hdec
    rw [if_pos (hk.2 hn), St.bind_ok (et.trans hdec), noLook_run (addMask_run (by simp))]
    simp [dateDec, dayNums]; rfl
  · rw [if_neg hn] at hdec
    rw [if_neg (fun q => hn (hk.1 q))]
    obtain ⟨s', hdec⟩ := hdec
    exact ⟨s', by rw [St.bind_err (et.trans hdec)]⟩

/-- A clock time with colons after a day. -/
theorem fieldT_colons {ft : List TokenField} {i : Nat} {d : Dec} (hT : T.Ok) (hc : T.colons = true)
    (hp : d.pType = .number) (hm : d.fMask &&& 31744 = 0) :
    if T.h ≤ 2147483647 ∧ T.m ≤ 59 ∧ T.s ≤ 60 then
      timeOnlyField p plainLook order ft i (.time, T.bytes) (d, ()) = (.ok (), (withClock d T, ()))
    else ∃ e s, timeOnlyField p plainLook order ft i (.time, T.bytes) (d, ()) = (.err e, s) := by
  have hd := decodeTime_clock hT hc ⟨d.tMask, d.tm, d.fSec⟩
  unfold timeOnlyField
  simp only
  by_cases hv : T.h ≤ 2147483647 ∧ T.m ≤ 59 ∧ T.s ≤ 60
  · rw [if_pos hv] at hd ⊢
    have e2 : onTime (decodeTime T.bytes INTERVAL_FULL_RANGE) d =
        (.ok (), { d with tMask := DTK_TIME_M, tm := { d.tm with hour := T.h, min := T.m, sec := T.s },
                          fSec := clockUs T }) := by
      simp only [onTime, St.zoom, hd]
    rw [St.bind_ok (noLook_run e2), noLook_run (addMask_run (by rw [Nat.and_comm]; exact hm))]
    unfold withClock
    simp only [← hp]
  · rw [if_neg hv] at hd ⊢
    obtain ⟨e, t, hd⟩ := hd
    have e2 : onTime (decodeTime T.bytes INTERVAL_FULL_RANGE) d =
        (.err e, { d with tMask := t.tMask, tm := t.tm, fSec := t.fsec }) := by
      simp only [onTime, St.zoom, hd]
    exact ⟨_, _, St.bind_err (noLook_run e2)⟩

/-- `decode_time_only` on a day, a clock time with colons and the marks after them. -/
theorem timeOnly_day (p : Profile) (order : DateOrder) (mer : Option Bool) (bc : Bool)
    (hD : (DayText.numeric x a b c).Ok) (hT : T.Ok) (hc : T.colons = true) {l : List Field}
    (hl : l = (.date, (DayText.numeric x a b c).bytes) :: (.time, T.bytes) :: (merFields mer ++ bcFields bc)) :
    match inputDay order a b c bc, hourOf mer T.h with
    | some _, some k =>
      if DayFits order (.numeric x a b c) ∧ ClockInput k T.m T.s (clockUs T) then
        ∃ d : Dec, d.tm.hour = k ∧ d.tm.min = T.m ∧ d.tm.sec = T.s ∧ d.fSec = clockUs T ∧
          decodeTimeOnly p plainLook order l ({}, ()) = (.ok (), (d, ()))
      else ∃ e s, decodeTimeOnly p plainLook order l ({}, ()) = (.err e, s)
    | _, _ => ∃ e s, decodeTimeOnly p plainLook order l ({}, ()) = (.err e, s) := by
  have hlen : 2 ≤ (l.map Prod.fst).length := by rw [hl]; simp
  have h1 : (l.map Prod.fst)[1]? = some .time := by rw [hl]; rfl
  generalize hft : l.map Prod.fst = ft at hlen h1
  have hday := fieldT_day (p := p) (order := order) hD hlen h1
  have hgen : (∃ e s, decodeTimeOnly p plainLook order l ({}, ()) = (.err e, s)) →
      match inputDay order a b c bc, hourOf mer T.h with
      | some _, some k =>
        if False then
          ∃ d : Dec, d.tm.hour = k ∧ d.tm.min = T.m ∧ d.tm.sec = T.s ∧ d.fSec = clockUs T ∧
            decodeTimeOnly p plainLook order l ({}, ()) = (.ok (), (d, ()))
        else ∃ e s, decodeTimeOnly p plainLook order l ({}, ()) = (.err e, s)
      | _, _ => ∃ e s, decodeTimeOnly p plainLook order l ({}, ()) = (.err e, s) := by
    intro h
    cases inputDay order a b c bc <;> cases hourOf mer T.h <;> simp only [if_false] <;> exact h
  by_cases hf : DayFits order (.numeric x a b c)
  swap
  · rw [if_neg hf] at hday
    obtain ⟨s, hday⟩ := hday
    have : ∃ e s, decodeTimeOnly p plainLook order l ({}, ()) = (.err e, s) := by
      refine ⟨.overflow, s, ?_⟩
      unfold decodeTimeOnly
      rw [hft, hl, St.bind_err (loopT_err hday)]
    simp only [hf, false_and]
    exact hgen this
  rw [if_pos hf] at hday
  have hclk := fieldT_colons (p := p) (order := order) (ft := ft) (i := 0 + 1)
    (d := dateDec (dayNums order (.numeric x a b c))) hT hc rfl (by simp [dateDec])
  by_cases hv : T.h ≤ 2147483647 ∧ T.m ≤ 59 ∧ T.s ≤ 60
  swap
  · rw [if_neg hv] at hclk
    obtain ⟨e, s, hclk⟩ := hclk
    have herr : ∃ e s, decodeTimeOnly p plainLook order l ({}, ()) = (.err e, s) := by
      refine ⟨e, s, ?_⟩
      unfold decodeTimeOnly
      rw [hft, hl, St.bind_err ((loopT_next hday).trans (loopT_err hclk))]
    cases hd : inputDay order a b c bc with
    | none => exact herr
    | some _ =>
      cases hk : hourOf mer T.h with
      | none => exact herr
      | some k =>
        simp only
        rw [if_neg]
        · exact herr
        · rintro ⟨-, c1, c2, c3, c4⟩
          apply hv
          refine ⟨?_, c2, c3⟩
          cases mer with
          | none => simp only [hourOf, Option.some.injEq] at hk; omega
          | some pm =>
            simp only [hourOf, hour24] at hk
            split at hk
            · omega
            · cases hk
  rw [if_pos hv] at hclk
  obtain ⟨Z, hZ, hzr⟩ : ∃ Z, DateState p Z bc (fun b' => (DayText.numeric x a b c).day order b') ∧
      Z = dateDec (dayNums order (.numeric x a b c)) := by
    obtain ⟨Z, hZ, hz⟩ := (reads_dayText (p := p) (order := order) hD bc).ok hf
    refine ⟨Z, hZ, ?_⟩
    have h0 := hz [] 0 []
    have := field_dayText p order [] 0 hD
    rw [if_pos hf] at this
    have h2 := loop_cons (fs := []) this
    have h3 := h0.symm.trans h2
    have h4 : ((.ok (), (Z, ())) : Res Unit × (Dec × Unit)) =
      (.ok (), (dateDec (dayNums order (.numeric x a b c)), ())) := h3
    exact congrArg (fun q => q.2.1) h4
  have hloop : timeOnlyLoop p plainLook order ft l 0 ({}, ()) =
      (.ok (), (withBc (withMer (withClock Z T) mer) bc, ())) := by
    rw [hl, loopT_next hday, loopT_next hclk, ← hzr]
    exact loopT_tail ft _ (withClock Z T) mer bc (by rw [hzr]; simp [withClock, dateDec]) (by rw [hzr]; simp [withClock, dateDec])
  have hfin := finish_anyDate mer (X := withClock Z T) (h := T.h) hZ rfl rfl rfl rfl rfl rfl rfl
    (by rw [hzr]; simp [withClock, dateDec]) (by rw [hzr]; rfl) (by rw [hzr]; rfl) rfl
  have eday : inputDay order a b c bc = (DayText.numeric x a b c).day order bc := rfl
  rw [eday]
  cases hd : (DayText.numeric x a b c).day order bc with
  | none =>
    rw [hd] at hfin
    obtain ⟨e, s, hfin⟩ := hfin
    refine ⟨e, (s, ()), ?_⟩
    unfold decodeTimeOnly
    rw [hft, St.bind_ok hloop, St.bind_err (noLook_run hfin)]
  | some _ =>
    cases hk : hourOf mer T.h with
    | none =>
      rw [hd, hk] at hfin
      obtain ⟨e, s, hfin⟩ := hfin
      refine ⟨e, (s, ()), ?_⟩
      unfold decodeTimeOnly
      rw [hft, St.bind_ok hloop, St.bind_err (noLook_run hfin)]
    | some k =>
      rw [hd, hk] at hfin
      obtain ⟨y, hfin, e1, e2, e3, e4⟩ := hfin
      have hbad := badTimeOnly_iff e1 e2 e3 e4
      have hb := clockUs_bounds hT
      have hrun : decodeTimeOnly p plainLook order l ({}, ()) =
          (if badTimeOnly y then .err .overflow else .ok (), (y, ())) := by
        unfold decodeTimeOnly
        rw [hft, St.bind_ok hloop, St.bind_ok (noLook_run hfin), St.bind_ok (noLook_run (St.get_run _)), St.ite_run]
        split <;> rfl
      have m1 : (withClock Z T).tm.min = (T.m : Int) := rfl
      have m2 : (withClock Z T).tm.sec = (T.s : Int) := rfl
      have m3 : (withClock Z T).fSec = clockUs T := rfl
      rw [m1, m2, m3] at hbad
      simp only
      by_cases hci : ClockInput k T.m T.s (clockUs T)
      · rw [if_pos ⟨hf, hci⟩]
        refine ⟨y, e1, e2, e3, e4, ?_⟩
        rw [hrun, if_neg]
        obtain ⟨c1, c2, c3, c4⟩ := hci
        rw [hbad]
        rw [imp_iff_not_or] at c4
        omega
      · rw [if_neg (fun q => hci q.2)]
        refine ⟨.overflow, (y, ()), ?_⟩
        rw [hrun, if_pos]
        rw [hbad]
        by_contra hcon
        apply hci
        unfold ClockInput
        rw [imp_iff_not_or]
        omega

end

/-- `Time::try_from_str` on a day, a space, a clock time with colons and the marks after them. -/
theorem time_day (p : Profile) (u : TokenField) {cs : Caches} (hcs : cs.Ok) (order : DateOrder) (bc : Bool)
    {x : Nat} {a b c : Bytes} {T : ClockText} (hD : (DayText.numeric x a b c).Ok) (hT : T.Ok) (hc : T.colons = true)
    {mer : Option Bool} {t text : Bytes} (hm : MeridiemText mer t)
    (ht : text = numericDate x a b c ++ [32] ++ T.bytes ++ t ++ bcMark bc) :
    match inputDay order a b c bc, hourOf mer T.h with
    | some _, some k =>
      if DayFits order (.numeric x a b c) ∧ ClockInput k T.m T.s (clockUs T) then
        Time.tryFromStr p u cs text (-1) order = .ok ⟨clockValue k T.m T.s (clockUs T)⟩
      else (Time.tryFromStr p u cs text (-1) order).IsErr
    | _, _ => (Time.tryFromStr p u cs text (-1) order).IsErr := by
  have hs := scan_form u hD (clk := some (.space, T)) hT hm bc (text := text) (by
    rw [ht]; simp [clkBytes, DayText.bytes, DateSep.bytes])
  have ef : (dayField (.numeric x a b c), (DayText.numeric x a b c).bytes) ::
      (clkFields (some (.space, T)) ++ (merFields mer ++ bcFields bc)) =
      (.date, (DayText.numeric x a b c).bytes) :: (.time, T.bytes) :: (merFields mer ++ bcFields bc) := by
    have : clockField T = .time := by unfold clockField; rw [hc]; rfl
    simp [dayField, clkFields, DateSep.fields, this]
  rw [ef] at hs
  have hrun := timeOnly_day p order mer bc hD hT hc rfl
  have herr : (∃ e s, decodeTimeOnly p plainLook order ((.date, (DayText.numeric x a b c).bytes) :: (.time, T.bytes) ::
      (merFields mer ++ bcFields bc)) ({}, ()) = (.err e, s)) → (Time.tryFromStr p u cs text (-1) order).IsErr := by
    rintro ⟨e, ⟨d, w'⟩, hrun⟩
    rw [time_run p u hcs (-1) order hs hrun]; exact ⟨_, rfl⟩
  cases hd : inputDay order a b c bc with
  | none => rw [hd] at hrun; exact herr hrun
  | some day =>
    cases hk : hourOf mer T.h with
    | none => rw [hd, hk] at hrun; exact herr hrun
    | some k =>
      rw [hd, hk] at hrun
      simp only at hrun ⊢
      by_cases hg : DayFits order (.numeric x a b c) ∧ ClockInput k T.m T.s (clockUs T)
      · rw [if_pos hg] at hrun ⊢
        obtain ⟨d, e1, e2, e3, e4, hrun⟩ := hrun
        obtain ⟨c1, c2, c3, c4⟩ := hg.2
        rw [time_run p u hcs (-1) order hs hrun, Res.bind_ok, e4,
          time_fromPgtime p (h := k) (m := T.m) (s := T.s) e1 e2 e3 (by omega) (by omega) (by omega)
            (clockUs_bounds hT)]
        rfl
      · rw [if_neg hg] at hrun ⊢
        exact herr hrun

theorem addMask_clash {d : Dec} (h : d.tMask &&& d.fMask ≠ 0) : addMask d = (.err .invalid, d) := by
  unfold addMask
  rw [St.get_bind, St.ite_run, if_pos h]
  rfl

/-- The first field is refused. -/
theorem timeOnly_first {p : Profile} {order : DateOrder} {l fs : List Field} {f : Field} {e : Err} {s : Dec × Unit}
    (hl : l = f :: fs) (h : timeOnlyField p plainLook order (l.map Prod.fst) 0 f ({}, ()) = (.err e, s)) :
    decodeTimeOnly p plainLook order l ({}, ()) = (.err e, s) := by
  unfold decodeTimeOnly
  conv => lhs; arg 1; arg 5; rw [hl]
  rw [St.bind_err (loopT_err h)]

theorem merFields_last (mer : Option Bool) (bc : Bool) (f : Field) (hf : f.1 ≠ .date) (l : List Field) :
    ((l ++ f :: (merFields mer ++ bcFields bc)).map Prod.fst).getLast? ≠ some .date := by
  have e : (l ++ f :: (merFields mer ++ bcFields bc)).map Prod.fst =
      l.map Prod.fst ++ (f.1 :: (merFields mer ++ bcFields bc).map Prod.fst) := by simp
  rw [e, List.getLast?_append]
  cases mer <;> cases bc <;> simp [merFields, bcFields, hf]

theorem clockField_ne (T : ClockText) : clockField T ≠ .date := by
  unfold clockField
  split <;> decide

/-- A day with separators, followed by anything but a clock time with colons after a space. -/
theorem time_day_refused (p : Profile) (u : TokenField) {cs : Caches} (hcs : cs.Ok) (order : DateOrder) (bc : Bool)
    {x : Nat} {a b c : Bytes} {T : ClockText} (hD : (DayText.numeric x a b c).Ok) (hT : T.Ok) {sep : DateSep}
    (hc : sep = .letterT ∨ T.colons = false)
    {mer : Option Bool} {t text : Bytes} (hm : MeridiemText mer t)
    (ht : text = numericDate x a b c ++ sep.bytes ++ T.bytes ++ t ++ bcMark bc) :
    (Time.tryFromStr p u cs text (-1) order).IsErr := by
  have hs := scan_form u hD (clk := some (sep, T)) hT hm bc (text := text) (by
    rw [ht]; simp [clkBytes, DayText.bytes])
  have hf : timeOnlyField p plainLook order
      (((dayField (.numeric x a b c), (DayText.numeric x a b c).bytes) ::
        (clkFields (some (sep, T)) ++ (merFields mer ++ bcFields bc))).map Prod.fst) 0
      (dayField (.numeric x a b c), (DayText.numeric x a b c).bytes) ({}, ()) = (.err .invalid, ({}, ())) := by
    unfold timeOnlyField
    simp only [dayField]
    refine St.bind_err ?_
    unfold dateTokenT
    rw [St.ite_run, if_neg]
    · rfl
    · rintro ⟨-, -, h | h⟩
      · refine merFields_last mer bc (clockField T, T.bytes) (clockField_ne T)
          ((TokenField.date, (DayText.numeric x a b c).bytes) :: sep.fields) ?_
        simpa [clkFields] using h
      · cases sep with
        | letterT => simp [clkFields, DateSep.fields] at h
        | space =>
          rcases hc with hc | hc
          · cases hc
          · simp [clkFields, DateSep.fields, clockField, hc] at h
  have hrun := timeOnly_first rfl hf
  rw [time_run p u hcs (-1) order hs hrun]
  exact ⟨_, rfl⟩

/-- A clock time followed by a day with separators. -/
theorem time_clock_day (p : Profile) (u : TokenField) {cs : Caches} (hcs : cs.Ok) (order : DateOrder) (bc : Bool)
    {x : Nat} {a b c : Bytes} {T : ClockText} (hD : (DayText.numeric x a b c).Ok) (hT : T.Ok) (hc : T.colons = true)
    {text : Bytes} (ht : text = T.bytes ++ [32] ++ numericDate x a b c ++ bcMark bc) :
    (Time.tryFromStr p u cs text (-1) order).IsErr := by
  have hd := scans_day' u hD (loose_bc bc) (scans_bc u bc)
  have hs0 := scans_clock u hT (r := 32 :: ((DayText.numeric x a b c).bytes ++ bcMark bc))
    (by simp [Loose]) (Scans.space hd)
  have hlen := day_len hD
  have hcl := clock_len hT
  have hb : (bcMark bc).length ≤ 3 := by cases bc <;> simp [bcMark]
  have e : text = T.bytes ++ 32 :: ((DayText.numeric x a b c).bytes ++ bcMark bc) := by
    rw [ht]; simp [DayText.bytes]
  rw [← e] at hs0
  have hs := scan_of hs0 (by rw [e]; simp) (by rw [e]; simp; omega)
    (by cases bc <;> simp [bcFields])
  generalize hl : (clockField T, T.bytes) :: ([(dayField (.numeric x a b c), (DayText.numeric x a b c).bytes)] ++
    bcFields bc) = l at hs
  have h2 : ∀ s, timeOnlyField p plainLook order (l.map Prod.fst) (0 + 1)
      (dayField (.numeric x a b c), (DayText.numeric x a b c).bytes) s = (.err .invalid, s) := by
    intro s
    unfold timeOnlyField
    simp only [dayField]
    refine St.bind_err ?_
    unfold dateTokenT
    rw [St.ite_run, if_neg (by simp)]
    rfl
  have ecf : clockField T = .time := by unfold clockField; rw [hc]; rfl
  have h1 := fieldT_colons (p := p) (order := order) (ft := l.map Prod.fst) (i := 0) (d := {}) hT hc rfl (by simp)
  rw [← ecf] at h1
  by_cases hv : T.h ≤ 2147483647 ∧ T.m ≤ 59 ∧ T.s ≤ 60
  · rw [if_pos hv] at h1
    have hrun : decodeTimeOnly p plainLook order l ({}, ()) = (.err .invalid, (withClock {} T, ())) := by
      unfold decodeTimeOnly
      have : timeOnlyLoop p plainLook order (l.map Prod.fst) l 0 ({}, ()) = (.err .invalid, (withClock {} T, ())) := by
        conv => lhs; arg 5; rw [← hl]
        rw [loopT_next h1, List.singleton_append, loopT_err (h2 _)]
      rw [St.bind_err this]
    rw [time_run p u hcs (-1) order hs hrun]
    exact ⟨_, rfl⟩
  · rw [if_neg hv] at h1
    obtain ⟨e, ⟨s, w⟩, h1⟩ := h1
    have hrun := timeOnly_first hl.symm h1
    rw [time_run p u hcs (-1) order hs hrun]
    exact ⟨_, rfl⟩

/-- A day without separators before a clock time with colons. -/
theorem time_compact_refused (p : Profile) (u : TokenField) {cs : Caches} (hcs : cs.Ok) (order : DateOrder) (bc : Bool)
    {ys mm dd : Bytes} {T : ClockText} (hD : (DayText.compact ys mm dd).Ok) (hT : T.Ok) (hc : T.colons = true)
    {mer : Option Bool} {t text : Bytes} (hm : MeridiemText mer t)
    (ht : text = ys ++ mm ++ dd ++ [32] ++ T.bytes ++ t ++ bcMark bc) :
    (Time.tryFromStr p u cs text (-1) order).IsErr := by
  have hs := scan_form u hD (clk := some (.space, T)) hT hm bc (text := text) (by
    rw [ht]; simp [clkBytes, DayText.bytes, DateSep.bytes])
  have ecf : clockField T = .time := by unfold clockField; rw [hc]; rfl
  have ef : (dayField (.compact ys mm dd), (DayText.compact ys mm dd).bytes) ::
      (clkFields (some (.space, T)) ++ (merFields mer ++ bcFields bc)) =
      (.number, ys ++ mm ++ dd) :: (.time, T.bytes) :: (merFields mer ++ bcFields bc) := by
    simp [dayField, clkFields, DateSep.fields, ecf, DayText.bytes]
  rw [ef] at hs
  obtain ⟨h1, h2, h3⟩ := hD
  have l2 := pair_len h2
  have l3 := pair_len h3
  have l1 := h1.2.1
  generalize hl : ((TokenField.number, ys ++ mm ++ dd) : Field) :: (.time, T.bytes) :: (merFields mer ++ bcFields bc) = l
    at hs
  by_cases h6 : ys.length = 2
  · have hS : (ClockText.six ys mm dd none).Ok := ⟨⟨h1.1, by omega, by omega⟩, h2, h3, by simp⟩
    have hf := fieldT_clock (p := p) (order := order) (ft := l.map Prod.fst) hS (by
      rw [← hl]
      exact merFields_last mer bc (.time, T.bytes) (show TokenField.time ≠ .date by decide) [_])
    rw [if_pos (by intro h; cases h)] at hf
    have eS : ((clockField (.six ys mm dd none), (ClockText.six ys mm dd none).bytes) : Field) =
        (.number, ys ++ mm ++ dd) := by
      simp [clockField, ClockText.colons, ClockText.bytes, dotText]
    rw [eS] at hf
    have hmask : (withClock {} (.six ys mm dd none)).fMask = 31744 := rfl
    have h2' : ∃ e s, timeOnlyField p plainLook order (l.map Prod.fst) (0 + 1) (.time, T.bytes)
        (withClock {} (.six ys mm dd none), ()) = (.err e, s) := by
      generalize withClock {} (.six ys mm dd none) = d at hmask
      have hd := decodeTime_clock hT hc ⟨d.tMask, d.tm, d.fSec⟩
      unfold timeOnlyField
      simp only
      by_cases hv : T.h ≤ 2147483647 ∧ T.m ≤ 59 ∧ T.s ≤ 60
      · rw [if_pos hv] at hd
        have e2 : onTime (decodeTime T.bytes INTERVAL_FULL_RANGE) d =
            (.ok (), { d with tMask := DTK_TIME_M, tm := { d.tm with hour := T.h, min := T.m, sec := T.s },
                              fSec := clockUs T }) := by
          simp only [onTime, St.zoom, hd]
        rw [St.bind_ok (noLook_run e2)]
        exact ⟨.invalid, _, noLook_run (addMask_clash (by simp [hmask]))⟩
      · rw [if_neg hv] at hd
        obtain ⟨e, t, hd⟩ := hd
        have e2 : onTime (decodeTime T.bytes INTERVAL_FULL_RANGE) d =
            (.err e, { d with tMask := t.tMask, tm := t.tm, fSec := t.fsec }) := by
          simp only [onTime, St.zoom, hd]
        exact ⟨_, _, St.bind_err (noLook_run e2)⟩
    obtain ⟨e, ⟨s, w⟩, h2'⟩ := h2'
    have hrun : decodeTimeOnly p plainLook order l ({}, ()) = (.err e, (s, w)) := by
      unfold decodeTimeOnly
      have : timeOnlyLoop p plainLook order (l.map Prod.fst) l 0 ({}, ()) = (.err e, (s, w)) := by
        conv => lhs; arg 5; rw [← hl]
        rw [loopT_next hf, loopT_err h2']
      rw [St.bind_err this]
    rw [time_run p u hcs (-1) order hs hrun]
    exact ⟨_, rfl⟩
  · have hd : Digits (ys ++ mm ++ dd) := digits_append.2 ⟨digits_append.2 ⟨h1.1, h2.1⟩, h3.1⟩
    have hn : decodeNumberField (ys ++ mm ++ dd) (0 ||| DTK_DATE_M) ⟨0, {}, 0, false⟩ = (.err .invalid, ⟨0, {}, 0, false⟩) := by
      unfold decodeNumberField
      rw [St.ite_run, if_neg (by rw [dotPos_plain hd]; simp), St.ite_run, if_neg (by simp)]
      unfold numberTime
      rw [St.ite_run, if_neg (by rintro ⟨-, h⟩; simp at h; omega), St.ite_run,
        if_neg (by rintro ⟨-, h⟩; simp at h; omega)]
      rfl
    have hf : timeOnlyField p plainLook order (l.map Prod.fst) 0 (.number, ys ++ mm ++ dd) ({}, ()) =
        (.err .invalid, ({}, ())) := by
      unfold timeOnlyField
      simp only
      refine St.bind_err ?_
      unfold numberTokenT
      rw [St.bind_ok (noLook_run (St.get_run _)), St.ite_run, if_neg (by simp), St.ite_run,
        if_neg (by rw [dotPos_plain hd]; simp), St.ite_run, if_pos (by simp; omega)]
      exact St.bind_err (noLook_run (onNum_run (d := {}) hn))
    have hrun := timeOnly_first hl.symm hf
    rw [time_run p u hcs (-1) order hs hrun]
    exact ⟨_, rfl⟩

end Pg
