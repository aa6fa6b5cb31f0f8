import Verif.Lemmas.DateFields

/-! # Numeric dates and timestamps as input -/

namespace Pg
open Spec

/-- The state after the word `bc`, if there is one. -/
def withBc (d : Dec) (bc : Bool) : Dec :=
  if bc then { d with bc := true, tMask := 262144, fMask := d.fMask ||| 262144 } else d

/-- The fields of the mark ` BC`. -/
def bcFields (bc : Bool) : List Field := if bc then [(.string, b!"bc")] else []

theorem loop_bc (p : Profile) (order : DateOrder) (ft : List TokenField) (i : Nat) (d : Dec) (bc : Bool)
    (hm : d.fMask &&& 262144 = 0) :
    dateTimeLoop p plainLook order ft (bcFields bc) i (d, ()) = (.ok (), (withBc d bc, ())) := by
  cases bc
  · rfl
  · show dateTimeLoop p plainLook order ft [(.string, b!"bc")] i (d, ()) = _
    rw [dateTimeLoop, St.bind_ok (field_bc hm)]
    rfl

theorem scans_bc (u : TokenField) (bc : Bool) : Scans u (bcMark bc) (bcFields bc) := by
  cases bc
  · exact Scans.nil u
  · have h := Scans.wordSpace (u := u) (w := b!"BC") (rest := []) (l := []) (by unfold Letters; decide) (by decide)
      (Or.inl rfl) (Scans.nil u)
    exact Scans.space h

theorem yearOf_eq {ys : Bytes} (h : Digits ys) (bc : Bool) :
    yearOf (value ys) (decide (ys.length ≤ 2)) bc = inputYear ys bc := by
  unfold yearOf inputYear
  cases bc
  · simp only [Bool.false_eq_true, if_false, decide_eq_true_eq]
    by_cases hl : ys.length ≤ 2
    · have hv := value_lt h
      have : 10 ^ ys.length ≤ 10 ^ 2 := Nat.pow_le_pow_right (by omega) hl
      rw [if_pos hl, if_pos hl, if_pos (show (value ys : Int) < 100 by omega)]
      congr 1
      by_cases h70 : value ys < 70
      · rw [if_pos (by omega), if_pos h70]
      · rw [if_neg (by omega), if_neg h70]
    · rw [if_neg hl, if_neg hl]
      by_cases h0 : value ys = 0
      · rw [if_pos (by omega), if_pos h0]
      · rw [if_neg (by omega), if_neg h0]
  · simp only [if_true]
    by_cases h0 : value ys = 0
    · rw [if_pos (by omega), if_pos h0]
    · rw [if_neg (by omega), if_neg h0]

/-- The run of `decode_date_time` when the fields have been read. -/
theorem run_day (p : Profile) (order : DateOrder) {l : List Field} {X : Dec} {ys : Bytes} {m d : Int} {bc : Bool}
    (hl : dateTimeLoop p plainLook order (l.map Prod.fst) l 0 ({}, ()) = (.ok (), (withBc X bc, ())))
    (hys : Digits ys) (hk : NumOk ys) (h1 : X.tm.year = value ys) (h2 : X.tm.mon = m) (h3 : X.tm.mday = d)
    (h4 : X.is2 = decide (ys.length ≤ 2)) (h5 : X.bc = false) (h6 : X.isJulian = false)
    (h7 : X.mer = 2) (h8 : X.dType = .date) (hm : X.fMask &&& 14 = 14) (hd : X.fMask &&& 32768 = 0) :
    match namedDay ys m d bc with
    | none => ∃ s, decodeDateTime p plainLook order l ({}, ()) = (.err .overflow, s)
    | some c => c.Real ∧ ∃ x, decodeDateTime p plainLook order l ({}, ()) = (.ok (), (x, ())) ∧
        x.dType = .date ∧ x.tm.year = c.y ∧ x.tm.mon = c.m ∧ x.tm.mday = c.d ∧ x.tm.hour = X.tm.hour ∧
        x.tm.min = X.tm.min ∧ x.tm.sec = X.tm.sec ∧ x.fSec = X.fSec := by
  obtain ⟨Y, hY⟩ : ∃ Y, Y = withBc X bc := ⟨_, rfl⟩
  have e : Y.tm = X.tm ∧ Y.is2 = X.is2 ∧ Y.bc = bc ∧ Y.isJulian = X.isJulian ∧ Y.mer = X.mer ∧
      Y.dType = X.dType ∧ Y.fSec = X.fSec ∧ Y.fMask &&& 14 = 14 ∧ Y.fMask &&& 32768 = 0 := by
    subst hY
    cases bc
    · exact ⟨rfl, rfl, h5, rfl, rfl, rfl, rfl, hm, hd⟩
    · refine ⟨rfl, rfl, rfl, rfl, rfl, rfl, rfl, ?_, ?_⟩
      · show (X.fMask ||| 262144) &&& 14 = 14
        rw [Nat.and_or_distrib_right, hm]; rfl
      · show (X.fMask ||| 262144) &&& 32768 = 0
        rw [Nat.and_or_distrib_right, hd]; rfl
  obtain ⟨e1, e2, e3, e4, e5, e6, e7, e8, e9⟩ := e
  rw [← hY] at hl
  have hfin := dateTime_finish p order hl (by rw [e4, h6]) (by rw [e5, h7]) e8 e9 (by
    rw [e1, h1]; have := hk.2; omega)
  rw [e1, e2, e3, h1, h2, h3, h4, yearOf_eq hys] at hfin
  unfold namedDay
  cases hiy : inputYear ys bc with
  | none => simp only [hiy] at hfin ⊢; exact ⟨_, hfin⟩
  | some y =>
    simp only [hiy] at hfin ⊢
    by_cases hr : (⟨y, m, d⟩ : YMD).Real
    · rw [if_pos hr] at hfin
      rw [if_pos hr]
      exact ⟨hr, _, hfin, by rw [e6, h8], rfl, h2, h3, rfl, rfl, rfl, e7⟩
    · rw [if_neg hr] at hfin
      rw [if_neg hr]
      exact ⟨_, hfin⟩

/-- The state after a numeric date. -/
def dateDec (n : Bytes × Bytes × Bytes) : Dec :=
  { tm := { year := value n.1, mon := value n.2.1, mday := value n.2.2 },
    is2 := decide (n.1.length ≤ 2), tMask := 14, fMask := 14 }

/-- The state after a numeric date and a clock time. -/
def stampDec (n : Bytes × Bytes × Bytes) (hh mm ss : Bytes) (f : Option Bytes) : Dec :=
  { tm := { year := value n.1, mon := value n.2.1, mday := value n.2.2, hour := value hh,
            min := value mm, sec := value ss },
    is2 := decide (n.1.length ≤ 2), tMask := 31744, fMask := 31758, fSec := fracMicros f }

/-- What may stand between a date and a clock time: a space, or `T`. -/
inductive DateSep where
  | space
  | letterT

def DateSep.bytes : DateSep → Bytes
  | .space => [32]
  | .letterT => [84]

def DateSep.fields : DateSep → List Field
  | .space => []
  | .letterT => [(.string, b!"t")]

theorem assign3_digits {order : DateOrder} {y : Bool} {a b c : Bytes} {P : Bytes → Prop} (ha : P a) (hc : P c) : P (assign3 order y a b c).1 := by
  unfold assign3
  cases y <;> cases order <;> simpa

theorem not_dateRange_of_year {c : YMD} (hr : c.Real) (h : 5874897 < c.y) : ¬ DateRange (dayNumber c) := by
  rw [dateRange_iff]
  have := (dayNumber_lt_iff (a := lastDay) (b := c) (by decide) hr).2 (Or.inl (by simp only [lastDay]; omega))
  rw [show dayNumber lastDay = 2145031948 from by decide] at this
  omega

theorem not_dateRange_of_year' {c : YMD} (hr : c.Real) (h : c.y < -4713) : ¬ DateRange (dayNumber c) := by
  rw [dateRange_iff]
  have := (dayNumber_lt_iff (a := c) (b := firstDay) hr (by decide)).2 (Or.inl (by simp only [firstDay]; omega))
  rw [show dayNumber firstDay = -2451545 from by decide] at this
  omega

/-- Numbers that do not fit 32 bits do not name a day in range. -/
theorem namedDay_big {ys ms ds : Bytes} {bc : Bool} (hy : Digits ys)
    (h : ¬ (value ys ≤ 2147483647 ∧ value ms ≤ 2147483647 ∧ value ds ≤ 2147483647)) :
    ∀ c, namedDay ys (value ms) (value ds) bc = some c →
      c.Real ∧ (2147483647 ≤ c.y ∨ c.y ≤ -2147483646) := by
  intro c hc
  unfold namedDay at hc
  cases hiy : inputYear ys bc with
  | none => rw [hiy] at hc; cases hc
  | some y =>
    simp only [hiy] at hc
    by_cases hr : (⟨y, value ms, value ds⟩ : YMD).Real
    · rw [if_pos hr] at hc
      injection hc with hc
      subst hc
      have hb := real_bounds hr
      simp only at hb
      have hbig : 2147483647 < value ys := by omega
      unfold inputYear at hiy
      cases bc
      · simp only [Bool.false_eq_true, if_false] at hiy
        by_cases hl : ys.length ≤ 2
        · have hv := value_lt hy
          have : 10 ^ ys.length ≤ 10 ^ 2 := Nat.pow_le_pow_right (by omega) hl
          omega
        · rw [if_neg hl, if_neg (by omega)] at hiy
          injection hiy with hiy
          exact ⟨hr, by simp only; omega⟩
      · simp only [if_true] at hiy
        rw [if_neg (by omega)] at hiy
        injection hiy with hiy
        exact ⟨hr, by simp only; omega⟩
    · rw [if_neg hr] at hc; cases hc

theorem loop_cons {p : Profile} {order : DateOrder} {ft : List TokenField} {f : Field} {fs : List Field}
    {i : Nat} {s s' : Dec × Unit} (h : dateTimeField p plainLook order ft i f s = (.ok (), s')) :
    dateTimeLoop p plainLook order ft (f :: fs) i s = dateTimeLoop p plainLook order ft fs (i + 1) s' := by
  rw [dateTimeLoop, St.bind_ok h]

theorem loop_cons_err {p : Profile} {order : DateOrder} {ft : List TokenField} {f : Field} {fs : List Field}
    {i : Nat} {s s' : Dec × Unit} {e : Err} (h : dateTimeField p plainLook order ft i f s = (.err e, s')) :
    dateTimeLoop p plainLook order ft (f :: fs) i s = (.err e, s') := by
  rw [dateTimeLoop, St.bind_err h]

/-- The word `t` between a date and a clock time. -/
theorem field_t {p : Profile} {order : DateOrder} {ft : List TokenField} {i : Nat} {d : Dec}
    (hm : d.fMask &&& 14 = 14) (hn : ft[i + 1]? = some .time) :
    dateTimeField p plainLook order ft i (.string, b!"t") (d, ()) =
      (.ok (), ({ d with tMask := 0, pType := .time }, ())) := by
  have hl : ∃ v, lookDate plainLook i b!"t" (d, ()) = (.ok (.isotime, v), (d, ())) ∧
      TokenField.ofInt v = .ok .time := by
    refine ⟨3, ?_, by decide⟩
    have : searchDate b!"t" = .ok (some ⟨b!"t", .isotime, 3⟩) := by decide +kernel
    unfold lookDate plainLook
    simp only [this]
    rfl
  obtain ⟨v, hl, hv⟩ := hl
  have ha : wordAction ft i .isotime v d = (.ok (), { d with tMask := 0, pType := .time }) := by
    unfold wordAction
    rw [St.mod_bind]
    simp only
    unfold isoTimeWord
    rw [St.mod_bind, St.get_bind, St.ite_run, if_neg (by simpa using hm)]
    simp only [hn]
    rw [St.ite_run, if_neg (by decide), hv, St.lift_ok_bind]
    rfl
  have e : wordToken plainLook ft i b!"t" (d, ()) =
      (.ok false, ({ d with tMask := 0, pType := .time }, ())) := by
    unfold wordToken
    rw [St.bind_ok hl]
    simp only
    rw [St.ite_run, if_neg (by decide), St.bind_ok (noLook_run ha)]
    rfl
  unfold dateTimeField
  simp only
  rw [St.bind_ok e]
  simp only [Bool.false_eq_true, if_false]
  rw [noLook_run (addMask_run (by simp))]
  simp

section
variable {a b c : Bytes} {x : Nat}

/-- Reading a numeric date. -/
theorem loop_date (p : Profile) (order : DateOrder) (ft : List TokenField) (bc : Bool) (hx : isSep x)
    (ha : Digits a) (na : a ≠ []) (hb : Digits b) (nb : b ≠ []) (hc : Digits c) (nc : c ≠ [])
    (h3 : 3 ≤ a.length ∨ order = .ymd → b.length ≠ 3) :
    if NumOk a ∧ NumOk b ∧ NumOk c then
      dateTimeLoop p plainLook order ft ((.date, a ++ x :: (b ++ x :: c)) :: bcFields bc) 0 ({}, ()) =
        (.ok (), (withBc (dateDec (assign3 order (decide (3 ≤ a.length)) a b c)) bc, ()))
    else ∃ s, dateTimeLoop p plainLook order ft ((.date, a ++ x :: (b ++ x :: c)) :: bcFields bc) 0 ({}, ()) =
        (.err .overflow, s) := by
  have h := field_date (p := p) (order := order) (ft := ft) (i := 0) (d := {}) hx hx ha na hb nb hc nc h3 rfl rfl
    (n := assign3 order (decide (3 ≤ a.length)) a b c) rfl
  by_cases hk : NumOk a ∧ NumOk b ∧ NumOk c
  · rw [if_pos hk] at h ⊢
    rw [loop_cons h]
    exact loop_bc p order ft 1 (dateDec _) bc (show (14 : Nat) &&& 262144 = 0 by decide)
  · rw [if_neg hk] at h ⊢
    obtain ⟨s, h⟩ := h
    exact ⟨s, loop_cons_err h⟩

/-- Reading a numeric date and a clock time; `tail` are the fields after them. -/
theorem loop_stamp_tail (p : Profile) (order : DateOrder) (tail : List Field) (sep : DateSep) (hx : isSep x)
    (ha : Digits a) (na : a ≠ []) (hb : Digits b) (nb : b ≠ []) (hc : Digits c) (nc : c ≠ [])
    (h3 : 3 ≤ a.length ∨ order = .ymd → b.length ≠ 3) {hh mm ss : Bytes} {f : Option Bytes}
    (k1 : Digits hh) (m1 : hh ≠ []) (k2 : Digits mm) (m2 : mm ≠ []) (k3 : Digits ss) (m3 : ss ≠ [])
    (kf : Digits (fracDigits f)) {l : List Field}
    (hl : l = (.date, a ++ x :: (b ++ x :: c)) :: (sep.fields ++ (.time, hmsBytes hh mm ss f) :: tail)) :
    if (NumOk a ∧ NumOk b ∧ NumOk c) ∧ Readable hh mm ss f ∧
        ClockInput (value hh) (value mm) (value ss) (fracMicros f) then
      ∃ i, dateTimeLoop p plainLook order (l.map Prod.fst) l 0 ({}, ()) =
        dateTimeLoop p plainLook order (l.map Prod.fst) tail i
          (stampDec (assign3 order (decide (3 ≤ a.length)) a b c) hh mm ss f, ())
    else ∃ e s, dateTimeLoop p plainLook order (l.map Prod.fst) l 0 ({}, ()) = (.err e, s) := by
  obtain ⟨ft, hft⟩ : ∃ ft, ft = l.map Prod.fst := ⟨_, rfl⟩
  rw [← hft]
  have h := field_date (p := p) (order := order) (ft := ft) (i := 0) (d := {}) hx hx ha na hb nb hc nc h3 rfl rfl
    (n := assign3 order (decide (3 ≤ a.length)) a b c) rfl
  generalize assign3 order (decide (3 ≤ a.length)) a b c = n at *
  by_cases hk : NumOk a ∧ NumOk b ∧ NumOk c
  swap
  · rw [if_neg hk] at h
    obtain ⟨s, h⟩ := h
    rw [if_neg (fun q => hk q.1), hl, loop_cons_err h]
    exact ⟨_, _, rfl⟩
  rw [if_pos hk] at h
  -- the state before the clock time
  obtain ⟨i, Y, hY, g1, g2, g3, g4, g5, g6, g7, g8, g9⟩ : ∃ i Y,
      dateTimeLoop p plainLook order ft l 0 ({}, ()) =
        dateTimeLoop p plainLook order ft ((.time, hmsBytes hh mm ss f) :: tail) i (Y, ()) ∧
      (Y.pType = .number ∨ Y.pType = .time) ∧ Y.fMask = 14 ∧ Y.tm = (dateDec n).tm ∧ Y.is2 = (dateDec n).is2 ∧
      Y.bc = false ∧ Y.isJulian = false ∧ Y.mer = 2 ∧ Y.dType = .date ∧ Y.textMonth = false := by
    rw [hl, loop_cons h]
    cases sep with
    | space => exact ⟨1, dateDec n, rfl, Or.inl rfl, rfl, rfl, rfl, rfl, rfl, rfl, rfl, rfl⟩
    | letterT =>
      have ht := field_t (p := p) (order := order) (ft := ft) (i := 1) (d := dateDec n)
        (show (14 : Nat) &&& 14 = 14 by decide) (by
        rw [hft, hl]; rfl)
      refine ⟨2, { dateDec n with tMask := 0, pType := .time }, loop_cons ht, Or.inr rfl, rfl, rfl, rfl, rfl, rfl,
        rfl, rfl, rfl⟩
  rw [hY]
  by_cases hr : Readable hh mm ss f ∧ ClockInput (value hh) (value mm) (value ss) (fracMicros f)
  · rw [if_pos ⟨hk, hr⟩,
      loop_cons (field_time_ok k1 m1 k2 m2 k3 m3 kf hr.1 hr.2 g1 (by rw [g2]; decide))]
    have e : ({ Y with pType := .number, tMask := DTK_TIME_M, fMask := Y.fMask ||| DTK_TIME_M,
                       tm := { Y.tm with hour := value hh, min := value mm, sec := value ss },
                       fSec := fracMicros f } : Dec) = stampDec n hh mm ss f := by
      obtain ⟨tm, dType, fSec, fMask, tMask, pType, isJulian, is2, bc', mer, textMonth⟩ := Y
      simp only at g2 g3 g4 g5 g6 g7 g8 g9
      subst g2 g3 g4 g5 g6 g7 g8 g9
      have h14 : (14 : Nat) ||| 31744 = 31758 := by decide
      simp only [h14]
      rfl
    rw [e]
    exact ⟨_, rfl⟩
  · rw [if_neg (fun q => hr q.2)]
    obtain ⟨e, s, ht⟩ := field_time_err (p := p) (order := order) (ft := ft) (i := i) (d := Y) k1 m1 k2 m2 k3 m3 kf
      hr g1
    exact ⟨e, s, loop_cons_err ht⟩

/-- Reading a numeric date and a clock time. -/
theorem loop_stamp (p : Profile) (order : DateOrder) (bc : Bool) (sep : DateSep) (hx : isSep x)
    (ha : Digits a) (na : a ≠ []) (hb : Digits b) (nb : b ≠ []) (hc : Digits c) (nc : c ≠ [])
    (h3 : 3 ≤ a.length ∨ order = .ymd → b.length ≠ 3) {hh mm ss : Bytes} {f : Option Bytes}
    (k1 : Digits hh) (m1 : hh ≠ []) (k2 : Digits mm) (m2 : mm ≠ []) (k3 : Digits ss) (m3 : ss ≠ [])
    (kf : Digits (fracDigits f)) {l : List Field}
    (hl : l = (.date, a ++ x :: (b ++ x :: c)) :: (sep.fields ++ (.time, hmsBytes hh mm ss f) :: bcFields bc)) :
    if (NumOk a ∧ NumOk b ∧ NumOk c) ∧ Readable hh mm ss f ∧
        ClockInput (value hh) (value mm) (value ss) (fracMicros f) then
      dateTimeLoop p plainLook order (l.map Prod.fst) l 0 ({}, ()) =
        (.ok (), (withBc (stampDec (assign3 order (decide (3 ≤ a.length)) a b c) hh mm ss f) bc, ()))
    else ∃ e s, dateTimeLoop p plainLook order (l.map Prod.fst) l 0 ({}, ()) = (.err e, s) := by
  have h := loop_stamp_tail p order (bcFields bc) sep hx ha na hb nb hc nc h3 k1 m1 k2 m2 k3 m3 kf hl
  split at h
  · rw [if_pos (by assumption)]
    obtain ⟨i, h⟩ := h
    rw [h]
    exact loop_bc p order _ _ (stampDec _ hh mm ss f) bc (show (31758 : Nat) &&& 262144 = 0 by decide)
  · rw [if_neg (by assumption)]
    exact h

theorem scans_date (u : TokenField) (bc : Bool) (hx : isSep x) (ha : Digits a) (na : a ≠ []) (hb : Digits b)
    (nb : b ≠ []) (hc : Digits c) :
    Scans u (a ++ x :: (b ++ x :: (c ++ bcMark bc))) ((.date, a ++ x :: (b ++ x :: c)) :: bcFields bc) := by
  refine Scans.date hx ha na hb nb hc ?_ (scans_bc u bc)
  cases bc
  · exact Stops.nil _
  · exact Stops.cons (by rcases hx with rfl | rfl | rfl <;> rfl)

/-- A numeric date, what separates it from a clock time, and fields that start with a digit. -/
theorem scans_date_sep (u : TokenField) (sep : DateSep) (hx : isSep x) (ha : Digits a) (na : a ≠ [])
    (hb : Digits b) (nb : b ≠ []) (hc : Digits c) {hh mm ss : Bytes} {f : Option Bytes} {r : Bytes} {l : List Field}
    (k1 : Digits hh) (m1 : hh ≠ []) (ht : Scans u (hmsBytes hh mm ss f ++ r) l) :
    Scans u (a ++ x :: (b ++ x :: (c ++ (sep.bytes ++ (hmsBytes hh mm ss f ++ r)))))
      ((.date, a ++ x :: (b ++ x :: c)) :: (sep.fields ++ l)) := by
  refine Scans.date hx ha na hb nb hc ?_ ?_
  · cases sep
    · exact Stops.cons (by rcases hx with rfl | rfl | rfl <;> rfl)
    · exact Stops.cons (by rcases hx with rfl | rfl | rfl <;> rfl)
  · cases sep
    · exact Scans.space ht
    · obtain ⟨y, t, e, hy, -⟩ := digit_head (r := 58 :: (mm ++ 58 :: (ss ++ fracBytes f)) ++ r) k1 m1
      have e' : hmsBytes hh mm ss f ++ r = y :: t := by
        rw [← e, hmsBytes]; simp
      refine Scans.word (w := [84]) (by unfold Letters; decide) (by decide) ?_ ?_ ht
      · rw [e']
        refine Stops.cons ?_
        rw [isDigit_iff] at hy
        rw [Bool.eq_false_iff, ne_eq, isAlpha_iff]; omega
      · rw [e', alphaIsDate]
        have : searchDate (lower [84]) = .ok (some ⟨b!"t", .isotime, 3⟩) := by decide +kernel
        have hne : (y = 45 || y = 47 || y = 46) = false := by
          rw [isDigit_iff] at hy; simp; omega
        rw [if_neg (by simpa using hne), if_pos (by simp [hy]), this]
        rfl


theorem scans_stamp (u : TokenField) (bc : Bool) (sep : DateSep) (hx : isSep x) (ha : Digits a) (na : a ≠ [])
    (hb : Digits b) (nb : b ≠ []) (hc : Digits c) {hh mm ss : Bytes} {f : Option Bytes}
    (k1 : Digits hh) (m1 : hh ≠ []) (k2 : Digits mm) (k3 : Digits ss) (kf : Digits (fracDigits f)) :
    Scans u (a ++ x :: (b ++ x :: (c ++ (sep.bytes ++ (hmsBytes hh mm ss f ++ bcMark bc)))))
      ((.date, a ++ x :: (b ++ x :: c)) :: (sep.fields ++ (.time, hmsBytes hh mm ss f) :: bcFields bc)) := by
  have ht : Scans u (hmsBytes hh mm ss f ++ bcMark bc) ((.time, hmsBytes hh mm ss f) :: bcFields bc) := by
    have h := Scans.time (u := u) (rest := bcMark bc) k1 m1 (hms_timeB (f := f) k2 k3 kf) (by
      cases bc
      · exact Stops.nil _
      · exact Stops.cons rfl) (scans_bc u bc)
    rw [hmsBytes]
    have e : hh ++ 58 :: (mm ++ 58 :: (ss ++ fracBytes f)) ++ bcMark bc =
        hh ++ 58 :: (mm ++ 58 :: (ss ++ fracBytes f) ++ bcMark bc) := by simp
    rw [e]
    exact h
  exact scans_date_sep u sep hx ha na hb nb hc k1 m1 ht

end

end Pg

namespace Pg
open Spec

section
variable {a b c : Bytes} {x : Nat}

theorem numOk_of {v : Bytes} (hl : v.length ≤ 10) : NumOk v ↔ value v ≤ 2147483647 := by
  unfold NumOk; tauto

theorem assign3_all {order : DateOrder} {y : Bool} {P : Bytes → Prop} :
    (P a ∧ P b ∧ P c) ↔ (P (assign3 order y a b c).1 ∧ P (assign3 order y a b c).2.1 ∧
      P (assign3 order y a b c).2.2) := by
  unfold assign3
  cases y <;> cases order <;> simp <;> tauto

theorem inputDay_big {order : DateOrder} {bc : Bool} (ha : Digits a) (hc : Digits c)
    (la : a.length ≤ 10) (lb : b.length ≤ 10) (lc : c.length ≤ 10)
    (h : ¬ (NumOk a ∧ NumOk b ∧ NumOk c)) :
    ∀ day, inputDay order a b c bc = some day →
      day.Real ∧ (2147483647 ≤ day.y ∨ day.y ≤ -2147483646) := by
  intro day hday
  unfold inputDay at hday
  simp only at hday
  refine namedDay_big (assign3_digits ha hc) ?_ day hday
  rw [numOk_of la, numOk_of lb, numOk_of lc] at h
  rwa [← assign3_all (P := fun v => value v ≤ 2147483647)]

/-- `Date::try_from_str` on a numeric date. -/
theorem date_numeric (p : Profile) (u : TokenField) {cs : Caches} (hcs : cs.Ok) (order : DateOrder) (bc : Bool)
    (hx : isSep x) (ha : Digits a) (na : a ≠ []) (hb : Digits b) (nb : b ≠ []) (hc : Digits c) (nc : c ≠ [])
    (la : a.length ≤ 10) (lb : b.length ≤ 10) (lc : c.length ≤ 10)
    (h3 : 3 ≤ a.length ∨ order = .ymd → b.length ≠ 3) :
    match inputDay order a b c bc with
    | none => (Date.tryFromStr p u cs (numericDate x a b c ++ bcMark bc) order).IsErr
    | some day =>
      if DateRange (dayNumber day) then
        Date.tryFromStr p u cs (numericDate x a b c ++ bcMark bc) order = .ok ⟨dayNumber day⟩
      else (Date.tryFromStr p u cs (numericDate x a b c ++ bcMark bc) order).IsErr := by
  have et : numericDate x a b c ++ bcMark bc = a ++ x :: (b ++ x :: (c ++ bcMark bc)) := by
    simp [numericDate]
  have hs := scan_of (scans_date u bc hx ha na hb nb hc) (by simp) (by
    cases bc <;> simp [bcMark] <;> omega) (by cases bc <;> simp [bcFields])
  have hloop := loop_date p order (((.date, a ++ x :: (b ++ x :: c)) :: bcFields bc : List Field).map Prod.fst) bc
    hx ha na hb nb hc nc h3
  rw [et]
  by_cases hk : NumOk a ∧ NumOk b ∧ NumOk c
  · rw [if_pos hk] at hloop
    have hk' := (assign3_all (order := order) (y := decide (3 ≤ a.length)) (P := NumOk)).1 hk
    have hrun := run_day p order (m := value (assign3 order (decide (3 ≤ a.length)) a b c).2.1)
      (d := value (assign3 order (decide (3 ≤ a.length)) a b c).2.2) hloop (assign3_digits ha hc) hk'.1
      rfl rfl rfl rfl rfl rfl rfl rfl (show (14 : Nat) &&& 14 = 14 by decide)
      (show (14 : Nat) &&& 32768 = 0 by decide)
    change match inputDay order a b c bc with | none => _ | some c => _ at hrun
    cases hday : inputDay order a b c bc with
    | none =>
      rw [hday] at hrun
      obtain ⟨⟨d, w⟩, hrun⟩ := hrun
      simp only
      rw [date_run p u hcs order hs hrun]
      exact ⟨_, rfl⟩
    | some day =>
      rw [hday] at hrun
      obtain ⟨hr, d, hrun, e1, e2, e3, e4, -⟩ := hrun
      simp only
      rw [date_run p u hcs order hs hrun, Res.bind_ok, date_ofDec p e1 e2 e3 e4 hr]
      by_cases hd : DateRange (dayNumber day)
      · rw [if_pos hd, if_pos hd]
      · rw [if_neg hd, if_neg hd]; exact ⟨_, rfl⟩
  · rw [if_neg hk] at hloop
    obtain ⟨⟨d, w⟩, hloop⟩ := hloop
    have hrun := dateTime_err p order hloop
    have hbig := inputDay_big (order := order) (bc := bc) ha hc la lb lc hk
    rw [date_run p u hcs order hs hrun]
    cases hday : inputDay order a b c bc with
    | none => exact ⟨_, rfl⟩
    | some day =>
      obtain ⟨hr, hy⟩ := hbig day hday
      simp only
      rw [if_neg]
      · exact ⟨_, rfl⟩
      · rcases hy with hy | hy
        · exact not_dateRange_of_year hr (by omega)
        · exact not_dateRange_of_year' hr (by omega)

theorem dateRange_of_tsRange {c : YMD} {t : Clock} (ht : 0 ≤ t.micros ∧ t.micros ≤ 400000000000)
    (h : TsRange (instant c t)) (hr : c.Real) : c.y ≤ 294276 ∧ -4714 ≤ c.y := by
  rw [tsRange_iff] at h
  unfold instant dayMicros at h
  constructor
  · by_contra hlt
    have := (dayNumber_lt_iff (a := lastTsDay) (b := c) (by decide) hr).2 (Or.inl (by simp only [lastTsDay]; omega))
    rw [show dayNumber lastTsDay = 106751982 from by decide] at this
    omega
  · by_contra hlt
    have := (dayNumber_lt_iff (a := c) (b := ⟨-4714, 1, 1⟩) hr (by decide)).2 (Or.inl (by simp only; omega))
    rw [show dayNumber ⟨-4714, 1, 1⟩ = -2452237 from by decide] at this
    omega

/-- The clock reading written `hh:mm:ss[.f]`. -/
def clockIn (hh mm ss : Bytes) (f : Option Bytes) : Clock := ⟨value hh, value mm, value ss, fracMicros f⟩

theorem clockIn_micros {hh mm ss : Bytes} {f : Option Bytes} (hf : Digits (fracDigits f))
    (hl : (fracDigits f).length ≤ 7) (h : ClockInput (value hh) (value mm) (value ss) (fracMicros f)) :
    0 ≤ (clockIn hh mm ss f).micros ∧ (clockIn hh mm ss f).micros ≤ 86401000000 := by
  have hb := fracMicros_bounds hf hl
  obtain ⟨c1, c2, c3, c4⟩ := h
  rw [imp_iff_not_or] at c4
  unfold clockIn Clock.micros
  simp only
  omega

theorem timestamp_noTypmod (p : Profile) (t : Timestamp) : t.adjustByTypmod p (-1) = .ok t := by
  unfold Timestamp.adjustByTypmod
  simp

/-- `Timestamp::try_from_str` on a numeric date and a clock time. -/
theorem timestamp_numeric (p : Profile) (u : TokenField) {cs : Caches} (hcs : cs.Ok) (order : DateOrder)
    (bc : Bool) (sep : DateSep)
    (hx : isSep x) (ha : Digits a) (na : a ≠ []) (hb : Digits b) (nb : b ≠ []) (hc : Digits c) (nc : c ≠ [])
    (la : a.length ≤ 10) (lb : b.length ≤ 10) (lc : c.length ≤ 10)
    (h3 : 3 ≤ a.length ∨ order = .ymd → b.length ≠ 3) {hh mm ss : Bytes} {f : Option Bytes}
    (k1 : Digits hh) (m1 : hh ≠ []) (k2 : Digits mm) (m2 : mm ≠ []) (k3 : Digits ss) (m3 : ss ≠ [])
    (kf : Digits (fracDigits f)) {text : Bytes}
    (htext : text = numericDate x a b c ++ sep.bytes ++ hmsBytes hh mm ss f ++ bcMark bc)
    (hlen : text.length ≤ 128) :
    match inputDay order a b c bc with
    | none => (Timestamp.tryFromStr p u cs text (-1) order).IsErr
    | some day =>
      if (Readable hh mm ss f ∧ ClockInput (value hh) (value mm) (value ss) (fracMicros f)) ∧
          TsRange (instant day (clockIn hh mm ss f)) then
        Timestamp.tryFromStr p u cs text (-1) order = .ok ⟨instant day (clockIn hh mm ss f)⟩
      else (Timestamp.tryFromStr p u cs text (-1) order).IsErr := by
  have et : text = a ++ x :: (b ++ x :: (c ++ (sep.bytes ++ (hmsBytes hh mm ss f ++ bcMark bc)))) := by
    rw [htext]; simp [numericDate]
  have hs := scan_of (scans_stamp u bc sep hx ha na hb nb hc k1 m1 k2 k3 kf) (by simp) (by
    rw [← et]; exact hlen) (by cases bc <;> cases sep <;> simp [bcFields, DateSep.fields])
  have hloop := loop_stamp p order bc sep hx ha na hb nb hc nc h3 k1 m1 k2 m2 k3 m3 kf (l := _) rfl
  rw [et]
  by_cases hk : (NumOk a ∧ NumOk b ∧ NumOk c) ∧ Readable hh mm ss f ∧
        ClockInput (value hh) (value mm) (value ss) (fracMicros f)
  · rw [if_pos hk] at hloop
    have hk' := (assign3_all (order := order) (y := decide (3 ≤ a.length)) (P := NumOk)).1 hk.1
    have hrun := run_day p order (m := value (assign3 order (decide (3 ≤ a.length)) a b c).2.1)
      (d := value (assign3 order (decide (3 ≤ a.length)) a b c).2.2) hloop (assign3_digits ha hc) hk'.1
      rfl rfl rfl rfl rfl rfl rfl rfl (show (31758 : Nat) &&& 14 = 14 by decide)
      (show (31758 : Nat) &&& 32768 = 0 by decide)
    change match inputDay order a b c bc with | none => _ | some c => _ at hrun
    cases hday : inputDay order a b c bc with
    | none =>
      rw [hday] at hrun
      obtain ⟨⟨d, w⟩, hrun⟩ := hrun
      simp only
      rw [timestamp_run p u hcs (-1) order hs hrun]
      exact ⟨_, rfl⟩
    | some day =>
      rw [hday] at hrun
      obtain ⟨hr, d, hrun, e1, e2, e3, e4, e5, e6, e7, e8⟩ := hrun
      simp only
      rw [timestamp_run p u hcs (-1) order hs hrun, Res.bind_ok]
      have hfb := fracMicros_bounds kf hk.2.1.2.2.2
      obtain ⟨c1, c2, c3, c4⟩ := hk.2.2
      rw [imp_iff_not_or] at c4
      have hts := timestamp_ofDec p (t := clockIn hh mm ss f) e1 e2 e3 e4 e5 e6 e7 e8 hr
        (by simp only [clockIn]; omega) (by simp only [clockIn]; omega) (by simp only [clockIn]; omega) hfb
      by_cases hd : TsRange (instant day (clockIn hh mm ss f))
      · rw [if_pos hd] at hts
        rw [if_pos ⟨hk.2, hd⟩, hts, Res.bind_ok, timestamp_noTypmod]
      · rw [if_neg hd] at hts
        rw [if_neg (fun q => hd q.2)]
        obtain ⟨e, he⟩ := hts
        rw [he]; exact ⟨_, rfl⟩
  · rw [if_neg hk] at hloop
    obtain ⟨e, ⟨d, w⟩, hloop⟩ := hloop
    have hrun := dateTime_err p order hloop
    rw [timestamp_run p u hcs (-1) order hs hrun]
    cases hday : inputDay order a b c bc with
    | none => exact ⟨_, rfl⟩
    | some day =>
      simp only
      rw [if_neg]
      · exact ⟨_, rfl⟩
      · rintro ⟨hrc, hts⟩
        have hnk : ¬ (NumOk a ∧ NumOk b ∧ NumOk c) := fun q => hk ⟨q, hrc⟩
        obtain ⟨hr, hy⟩ := inputDay_big (order := order) (bc := bc) ha hc la lb lc hnk day hday
        have := dateRange_of_tsRange (by have := clockIn_micros kf hrc.1.2.2.2 hrc.2; omega) hts hr
        omega

end

end Pg
