import Verif.Lemmas.Forms

/-! # Parsing all written forms of days and clock times -/

namespace Pg
open Spec

/-- A clock time with colons is checked. -/
def Accepted (T : ClockText) : Prop := T.colons = true → ClockInput T.h T.m T.s (clockUs T)

instance (T : ClockText) : Decidable (Accepted T) := by unfold Accepted; infer_instance

/-- The state after a clock time. -/
def withClock (Y : Dec) (T : ClockText) : Dec :=
  { Y with pType := .number, tMask := DTK_TIME_M, fMask := Y.fMask ||| DTK_TIME_M,
           tm := { Y.tm with hour := T.h, min := T.m, sec := T.s }, fSec := clockUs T }

section
variable {p : Profile} {order : DateOrder} {ft : List TokenField} {i : Nat} {d : Dec}

theorem timeToken_clock {T : ClockText} (h : T.Ok) (hc : T.colons = true)
    (hp : d.pType = .number ∨ d.pType = .time) :
    if ClockInput T.h T.m T.s (clockUs T) then
      timeToken T.bytes d =
        (.ok (), { d with pType := .number, tMask := DTK_TIME_M,
                          tm := { d.tm with hour := T.h, min := T.m, sec := T.s }, fSec := clockUs T })
    else ∃ e s', timeToken T.bytes d = (.err e, s') := by
  have hd := decodeTime_clock h hc ⟨d.tMask, d.tm, d.fSec⟩
  have hb := clockUs_bounds h
  have h0 : timeToken T.bytes d = (do
      onTime (decodeTime T.bytes INTERVAL_FULL_RANGE)
      let d ← St.get
      if d.tm.hour > HOURS_PER_DAY ∨ (d.tm.hour = HOURS_PER_DAY ∧ (d.tm.min > 0 ∨ d.tm.sec > 0 ∨ d.fSec > 0)) then
        St.fail .overflow
      else pure ()) { d with pType := .number } := by
    unfold timeToken
    rw [St.get_bind, St.ite_run, if_neg (by rcases hp with q | q <;> simp [q]), St.mod_bind]
  rw [h0]
  by_cases hv : T.h ≤ 2147483647 ∧ T.m ≤ 59 ∧ T.s ≤ 60
  · rw [if_pos hv] at hd
    have e2 : onTime (decodeTime T.bytes INTERVAL_FULL_RANGE) { d with pType := .number } =
        (.ok (), { d with pType := .number, tMask := DTK_TIME_M,
                          tm := { d.tm with hour := T.h, min := T.m, sec := T.s }, fSec := clockUs T }) := by
      simp only [onTime, St.zoom, hd]
    rw [St.bind_ok e2, St.get_bind]
    by_cases hci : ClockInput T.h T.m T.s (clockUs T)
    · rw [if_pos hci, St.ite_run, if_neg]
      · rfl
      · obtain ⟨c1, c2, c3, c4⟩ := hci
        rw [imp_iff_not_or] at c4
        simp only
        omega
    · rw [if_neg hci, St.ite_run, if_pos]
      · exact ⟨_, _, rfl⟩
      · simp only
        by_contra hcon
        apply hci
        unfold ClockInput
        rw [imp_iff_not_or]
        omega
  · rw [if_neg hv] at hd
    obtain ⟨e, t, hd⟩ := hd
    have e2 : onTime (decodeTime T.bytes INTERVAL_FULL_RANGE) { d with pType := .number } =
        (.err e, { d with pType := .number, tMask := t.tMask, tm := t.tm, fSec := t.fsec }) := by
      simp only [onTime, St.zoom, hd]
    rw [if_neg]
    · exact ⟨_, _, St.bind_err e2⟩
    · rintro ⟨c1, c2, c3, -⟩
      exact hv ⟨by omega, c2, c3⟩

theorem onNum_run {α : Type} {m : St NumS α} {r : Res α} {n : NumS}
    (h : m ⟨d.tMask, d.tm, d.fSec, d.is2⟩ = (r, n)) :
    onNum m d = (r, { d with tMask := n.tMask, tm := n.tm, fSec := n.fsec, is2 := n.is2 }) := by
  simp only [onNum, St.zoom, h]

theorem labelled_clock {T : ClockText} (h : T.Ok) (hc : T.colons = false) (hp : d.pType = .time)
    (hm : d.fMask &&& 14 = 14) (ht : d.fMask &&& DTK_TIME_M = 0) (hf : d.fSec = 0) (hty : d.dType = .date) :
    labelled p T.bytes d =
      (.ok (), { d with pType := .number, tMask := DTK_TIME_M,
                        tm := { d.tm with hour := T.h, min := T.m, sec := T.s }, fSec := clockUs T }) := by
  have hb := compact_bytes hc
  have hdg := compact_digits h
  have hl := compact_len h hc
  have hv : value (compactDigits T) ≤ 2147483647 := by
    have := value_lt hdg
    have h6 : 10 ^ (compactDigits T).length ≤ 10 ^ 6 := Nat.pow_le_pow_right (by omega) (by omega)
    omega
  have hs : str2i32 T.bytes = .ok ((value (compactDigits T) : Int), dotText (compactFrac T)) := by
    rw [hb]
    exact str2i32_ok hdg (by intro q; rw [q] at hl; simp at hl) (stops_dot _) (by omega) hv
  have hnf := numberField_clock h hc (m := d.fMask ||| 14)
    (by rw [Nat.and_or_distrib_right, hm]; rfl)
    (by rw [Nat.and_or_distrib_right, ht]; decide) ⟨d.tMask, d.tm, d.fSec, d.is2⟩ hf
  obtain ⟨tm, dType, fSec, fMask, tMask, pType, isJulian, is2, bc, mer, textMonth⟩ := d
  simp only at hp hm ht hf hty hnf
  subst hp hf hty
  unfold labelled
  rw [St.get_bind, hs, St.lift_ok_bind]
  simp only
  rw [St.ite_run, if_neg (by simp), St.ite_run, if_neg (by cases compactFrac T <;> simp [dotText])]
  have ha : labelAssign p .time T.bytes (value (compactDigits T)) (dotText (compactFrac T))
      (⟨tm, .date, 0, fMask, tMask, .time, isJulian, is2, bc, mer, textMonth⟩ : Dec) =
      (.ok (), ⟨{ tm with hour := T.h, min := T.m, sec := T.s }, .date, clockUs T, fMask, DTK_TIME_M, .time,
        isJulian, is2, bc, mer, textMonth⟩) := by
    unfold labelAssign
    simp only
    rw [St.get_bind, St.bind_ok (onNum_run hnf), St.get_bind]
    rfl
  rw [St.bind_ok ha]
  rfl

/-- A clock time after a day. -/
theorem field_clock {T : ClockText} (h : T.Ok) (hp : d.pType = .number ∨ d.pType = .time)
    (hm : d.fMask &&& 14 = 14) (ht : d.fMask &&& DTK_TIME_M = 0) (hf : d.fSec = 0) (hty : d.dType = .date) :
    if Accepted T then
      dateTimeField p plainLook order ft i (clockField T, T.bytes) (d, ()) = (.ok (), (withClock d T, ()))
    else ∃ e s, dateTimeField p plainLook order ft i (clockField T, T.bytes) (d, ()) = (.err e, s) := by
  cases hc : T.colons with
  | true =>
    have he : Accepted T ↔ ClockInput T.h T.m T.s (clockUs T) := by unfold Accepted; simp [hc]
    have htok := timeToken_clock (d := d) h hc hp
    have ecf : clockField T = .time := by unfold clockField; rw [hc]; rfl
    rw [ecf]
    by_cases hci : ClockInput T.h T.m T.s (clockUs T)
    · rw [if_pos hci] at htok
      rw [if_pos (he.2 hci)]
      simp only [dateTimeField]
      rw [St.bind_ok (noLook_run htok), noLook_run (addMask_run (by rw [Nat.and_comm]; exact ht))]
      rfl
    · rw [if_neg hci] at htok
      rw [if_neg (fun q => hci (he.1 q))]
      obtain ⟨e, s, htok⟩ := htok
      simp only [dateTimeField]
      exact ⟨_, _, St.bind_err (noLook_run htok)⟩
  | false =>
    have he : Accepted T := by unfold Accepted; simp [hc]
    have ecf : clockField T = .number := by unfold clockField; rw [hc]; rfl
    have hb := compact_bytes hc
    have hdg := compact_digits h
    have hl := compact_len h hc
    have hm' : d.fMask &&& DTK_TIME_M ≠ DTK_TIME_M := by rw [ht]; decide
    rw [if_pos he, ecf]
    have htok : numberToken p plainLook T.bytes order (d, ()) =
        (.ok (), ({ d with pType := .number, tMask := DTK_TIME_M,
                           tm := { d.tm with hour := T.h, min := T.m, sec := T.s }, fSec := clockUs T }, ())) := by
      unfold numberToken
      rw [St.bind_ok (noLook_run (St.get_run _)), St.ite_run]
      rcases hp with hp | hp
      swap
      · rw [if_pos (by rw [hp]; decide)]
        exact noLook_run (labelled_clock h hc hp hm ht hf hty)
      rw [if_neg (by simpa using hp)]
      have hnf := onNum_run (d := d) (numberField_clock h hc hm hm' ⟨d.tMask, d.tm, d.fSec, d.is2⟩ hf)
      have ed : ∀ x : Dec, x.pType = .number → ({ x with pType := .number } : Dec) = x := by
        intro x hx; cases x; simp only at hx; subst hx; rfl
      cases hfr : compactFrac T with
      | none =>
        have e : T.bytes = compactDigits T := by rw [hb, hfr]; simp [dotText]
        have e3 : T.bytes.length = (compactDigits T).length := by rw [e]
        have e2 : dotPos T.bytes = T.bytes.length := by rw [e, dotPos_plain hdg]
        rw [St.ite_run, if_neg (by rw [e2]; simp), St.ite_run, if_neg (by rw [e2]; simp), St.ite_run]
        by_cases h6 : 6 ≤ T.bytes.length
        · rw [if_pos ⟨h6, Or.inr ht⟩, St.bind_ok (noLook_run hnf)]
          simp only [St.pure_run, hp]
        · rw [if_neg (fun q => h6 q.1),
            noLook_run (onNum_run (decodeNumber_clock h hc hfr hm hm' order ⟨d.tMask, d.tm, d.fSec, d.is2⟩ hf))]
          simp only [hp]
      | some fs =>
        have e : T.bytes = compactDigits T ++ 46 :: fs := by rw [hb, hfr]; rfl
        have e2 : dotPos T.bytes = (compactDigits T).length := by rw [e, dotPos_dot hdg]
        have e4 : (compactDigits T).length ≠ T.bytes.length := by rw [e]; simp
        rw [St.ite_run, if_neg (by rw [hm]; simp), St.ite_run, if_pos ⟨by rw [e2]; exact e4, by rw [e2]; omega⟩,
          St.bind_ok (noLook_run hnf)]
        simp only [St.pure_run, hp]
    simp only [dateTimeField]
    rw [St.bind_ok htok, noLook_run (addMask_run (by rw [Nat.and_comm]; exact ht))]
    rfl

/-- The word `t` before a clock time. -/
theorem field_t' {ty : TokenField} (hm : d.fMask &&& 14 = 14) (hn : ft[i + 1]? = some ty)
    (hty : timeFollows ty = true) :
    dateTimeField p plainLook order ft i (.string, b!"t") (d, ()) =
      (.ok (), ({ d with tMask := 0, pType := .time }, ())) := by
  have hl : lookDate plainLook i b!"t" (d, ()) = (.ok (.isotime, 3), (d, ())) := by
    have : searchDate b!"t" = .ok (some ⟨b!"t", .isotime, 3⟩) := by decide +kernel
    unfold lookDate plainLook
    simp only [this]
    rfl
  have hv : TokenField.ofInt 3 = .ok .time := by decide
  have ha : wordAction ft i .isotime 3 d = (.ok (), { d with tMask := 0, pType := .time }) := by
    unfold wordAction
    rw [St.mod_bind]
    simp only
    unfold isoTimeWord
    rw [St.mod_bind, St.get_bind, St.ite_run, if_neg (by simpa using hm)]
    simp only [hn]
    rw [St.ite_run, if_neg (by simp [hty]), hv, St.lift_ok_bind]
    rfl
  have e : wordToken plainLook ft i b!"t" (d, ()) =
      (.ok false, ({ d with tMask := 0, pType := .time }, ())) := by
    unfold wordToken
    rw [St.bind_ok hl]
    simp only
    rw [St.ite_run, if_neg (by decide), St.bind_ok (noLook_run ha)]
    rfl
  unfold dateTimeField
  simp only
  rw [St.bind_ok e]
  simp only [Bool.false_eq_true, if_false]
  rw [noLook_run (addMask_run (by simp))]
  simp

end

/-- The fields of `AM` or `PM`. -/
def merFields : Option Bool → List Field
  | none => []
  | some pm => [(.string, merWord pm)]

/-- The state after `AM` or `PM`. -/
def withMer (X : Dec) : Option Bool → Dec
  | none => X
  | some pm => { X with mer := merVal pm, tMask := 512, fMask := X.fMask ||| 512 }

theorem loop_tail (p : Profile) (order : DateOrder) (ft : List TokenField) (i : Nat) (X : Dec) (mer : Option Bool)
    (bc : Bool) (h1 : X.fMask &&& 512 = 0) (h2 : X.fMask &&& 262144 = 0) :
    dateTimeLoop p plainLook order ft (merFields mer ++ bcFields bc) i (X, ()) =
      (.ok (), (withBc (withMer X mer) bc, ())) := by
  cases mer with
  | none => exact loop_bc p order ft i X bc h2
  | some pm =>
    show dateTimeLoop p plainLook order ft ((.string, merWord pm) :: bcFields bc) i (X, ()) = _
    rw [loop_cons (field_mer pm h1)]
    exact loop_bc p order ft (i + 1) (withMer X (some pm)) bc
      (show (X.fMask ||| 512) &&& 262144 = 0 by rw [Nat.and_or_distrib_right, h2]; rfl)

/-- The end of `decode_date_time`. -/
theorem run_form (p : Profile) (order : DateOrder) (mer : Option Bool) {l : List Field} {X : Dec} {ys : Bytes}
    {m d : Int} {bc : Bool} {h : Nat}
    (hl : dateTimeLoop p plainLook order (l.map Prod.fst) l 0 ({}, ()) = (.ok (), (withBc (withMer X mer) bc, ())))
    (hys : Digits ys) (hk : NumOk ys) (h1 : X.tm.year = value ys) (h2 : X.tm.mon = m) (h3 : X.tm.mday = d)
    (h4 : X.is2 = decide (ys.length ≤ 2)) (h5 : X.bc = false) (h6 : X.isJulian = false)
    (h7 : X.mer = 2) (h8 : X.dType = .date) (hm : X.fMask &&& 14 = 14) (hd : X.fMask &&& 32768 = 0)
    (hh : X.tm.hour = h) :
    match namedDay ys m d bc, hourOf mer h with
    | some c, some k => c.Real ∧ ∃ x, decodeDateTime p plainLook order l ({}, ()) = (.ok (), (x, ())) ∧
        x.dType = .date ∧ x.tm.year = c.y ∧ x.tm.mon = c.m ∧ x.tm.mday = c.d ∧ x.tm.hour = k ∧
        x.tm.min = X.tm.min ∧ x.tm.sec = X.tm.sec ∧ x.fSec = X.fSec
    | _, _ => ∃ s, decodeDateTime p plainLook order l ({}, ()) = (.err .overflow, s) := by
  cases mer with
  | none =>
    have := run_day p order hl hys hk h1 h2 h3 h4 h5 h6 h7 h8 hm hd
    cases hn : namedDay ys m d bc with
    | none => rw [hn] at this; exact this
    | some c =>
      rw [hn] at this
      obtain ⟨hr, x, e0, e1, e2, e3, e4, e5, e6⟩ := this
      exact ⟨hr, x, e0, e1, e2, e3, e4, e5.trans hh, e6⟩
  | some pm =>
    have := run_day_mer p order pm hl hys hk h1 h2 h3 h4 h5 h6 rfl h8
      (show (X.fMask ||| 512) &&& 14 = 14 by rw [Nat.and_or_distrib_right, hm]; rfl)
      (show (X.fMask ||| 512) &&& 32768 = 0 by rw [Nat.and_or_distrib_right, hd]; rfl) hh
    exact this

/-- What follows a day: nothing, or a separator and a clock time. -/
def clkBytes : Option (DateSep × ClockText) → Bytes
  | none => []
  | some (sep, T) => sep.bytes ++ T.bytes

def clkFields : Option (DateSep × ClockText) → List Field
  | none => []
  | some (sep, T) => sep.fields ++ [(clockField T, T.bytes)]

/-- The clock time, midnight if there is none. -/
def clkH : Option (DateSep × ClockText) → Nat
  | none => 0
  | some (_, T) => T.h
def clkM : Option (DateSep × ClockText) → Nat
  | none => 0
  | some (_, T) => T.m
def clkS : Option (DateSep × ClockText) → Nat
  | none => 0
  | some (_, T) => T.s
def clkUs : Option (DateSep × ClockText) → Int
  | none => 0
  | some (_, T) => clockUs T
def ClkOk : Option (DateSep × ClockText) → Prop
  | none => True
  | some (_, T) => T.Ok
def ClkAccepted : Option (DateSep × ClockText) → Prop
  | none => True
  | some (_, T) => Accepted T

instance (clk : Option (DateSep × ClockText)) : Decidable (ClkAccepted clk) := by
  cases clk with
  | none => exact isTrue trivial
  | some x => exact inferInstanceAs (Decidable (Accepted x.2))

theorem timeFollows_clock (T : ClockText) : timeFollows (clockField T) = true := by
  cases T <;> rfl

/-- Reading a day, a clock time and the marks after them. -/
theorem loop_form (p : Profile) (order : DateOrder) (mer : Option Bool) (bc : Bool) {D : DayText} (hD : D.Ok)
    {clk : Option (DateSep × ClockText)} (hT : ClkOk clk) {l : List Field}
    (hl : l = (dayField D, D.bytes) :: (clkFields clk ++ (merFields mer ++ bcFields bc))) :
    if DayFits order D ∧ ClkAccepted clk then
      ∃ X : Dec, dateTimeLoop p plainLook order (l.map Prod.fst) l 0 ({}, ()) =
          (.ok (), (withBc (withMer X mer) bc, ())) ∧
        X.tm.year = value (dayNums order D).1 ∧ X.tm.mon = value (dayNums order D).2.1 ∧
        X.tm.mday = value (dayNums order D).2.2 ∧ X.is2 = decide ((dayNums order D).1.length ≤ 2) ∧ X.bc = false ∧
        X.isJulian = false ∧ X.mer = 2 ∧ X.dType = .date ∧ X.fMask &&& 14 = 14 ∧ X.fMask &&& 32768 = 0 ∧
        X.tm.hour = clkH clk ∧ X.tm.min = clkM clk ∧ X.tm.sec = clkS clk ∧ X.fSec = clkUs clk
    else ∃ e s, dateTimeLoop p plainLook order (l.map Prod.fst) l 0 ({}, ()) = (.err e, s) := by
  obtain ⟨ft, hft⟩ : ∃ ft, ft = l.map Prod.fst := ⟨_, rfl⟩
  rw [← hft]
  have hday := field_dayText p order ft 0 hD
  by_cases hk : DayFits order D
  swap
  · rw [if_neg hk] at hday
    obtain ⟨s, hday⟩ := hday
    rw [if_neg (fun q => hk q.1), hl, loop_cons_err hday]
    exact ⟨_, _, rfl⟩
  rw [if_pos hk] at hday
  cases clk with
  | none =>
    rw [if_pos ⟨hk, trivial⟩]
    refine ⟨dateDec (dayNums order D), ?_, rfl, rfl, rfl, rfl, rfl, rfl, rfl, rfl,
      show (14 : Nat) &&& 14 = 14 by decide, show (14 : Nat) &&& 32768 = 0 by decide, rfl, rfl, rfl, rfl⟩
    rw [hl, loop_cons hday]
    exact loop_tail p order ft 1 (dateDec _) mer bc (show (14 : Nat) &&& 512 = 0 by decide)
      (show (14 : Nat) &&& 262144 = 0 by decide)
  | some st =>
    obtain ⟨sep, T⟩ := st
    obtain ⟨i, Y, hY, g1, g2, g3, g4, g5, g6, g7, g8, g9⟩ : ∃ i Y,
        dateTimeLoop p plainLook order ft l 0 ({}, ()) =
          dateTimeLoop p plainLook order ft ((clockField T, T.bytes) :: (merFields mer ++ bcFields bc)) i (Y, ()) ∧
        (Y.pType = .number ∨ Y.pType = .time) ∧ Y.fMask = 14 ∧ Y.tm = (dateDec (dayNums order D)).tm ∧
        Y.is2 = (dateDec (dayNums order D)).is2 ∧
        Y.bc = false ∧ Y.isJulian = false ∧ Y.mer = 2 ∧ Y.dType = .date ∧ Y.fSec = 0 := by
      rw [hl, loop_cons hday]
      cases sep with
      | space => exact ⟨1, dateDec (dayNums order D), rfl, Or.inl rfl, rfl, rfl, rfl, rfl, rfl, rfl, rfl, rfl⟩
      | letterT =>
        have ht := field_t' (p := p) (order := order) (ft := ft) (i := 1) (d := dateDec (dayNums order D))
          (ty := clockField T) (show (14 : Nat) &&& 14 = 14 by decide) (by rw [hft, hl]; rfl) (timeFollows_clock T)
        exact ⟨2, { dateDec (dayNums order D) with tMask := 0, pType := .time }, loop_cons ht, Or.inr rfl, rfl, rfl,
          rfl, rfl, rfl, rfl, rfl, rfl⟩
    rw [hY]
    have hf := field_clock (p := p) (order := order) (ft := ft) (i := i) (d := Y) (T := T) hT g1
      (by rw [g2]; decide) (by rw [g2]; decide) g9 g8
    by_cases ha : Accepted T
    · rw [if_pos ha] at hf
      rw [if_pos ⟨hk, ha⟩, loop_cons hf]
      have hfm : (withClock Y T).fMask = 31758 := by
        unfold withClock; simp only [g2]; decide
      refine ⟨withClock Y T, ?_, ?_, ?_, ?_, g4, g5, g6, g7, g8, by rw [hfm]; decide, by rw [hfm]; decide, rfl, rfl,
        rfl, rfl⟩
      · exact loop_tail p order ft (i + 1) (withClock Y T) mer bc (by rw [hfm]; decide) (by rw [hfm]; decide)
      · show Y.tm.year = _; rw [g3]; rfl
      · show Y.tm.mon = _; rw [g3]; rfl
      · show Y.tm.mday = _; rw [g3]; rfl
    · rw [if_neg ha] at hf
      obtain ⟨e, s, hf⟩ := hf
      rw [if_neg (fun q => ha q.2)]
      exact ⟨_, _, loop_cons_err hf⟩

end Pg
