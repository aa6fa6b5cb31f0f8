import Verif.Spec.YearDay
import Verif.Lemmas.LabelScan

/-! # Days by their number in the year -/

namespace Pg
open Spec

theorem validateYear_gen (p : Profile) (tm : PgTime) {m : Nat} (is2 bc : Bool) (hm : m &&& 14 = 14)
    (hy : 0 ≤ tm.year ∧ tm.year ≤ 2147483647) :
    tm.validateYear p m false is2 bc =
      match yearOf tm.year is2 bc with
      | none => .err .overflow
      | some y => .ok { tm with year := y } := by
  have b1 : hasBits m 4 = true := by unfold hasBits; rw [and_sub (b := 4) hm (by decide)]; rfl
  unfold PgTime.validateYear yearOf
  rw [b1]
  simp only [if_true, Bool.false_eq_true, if_false]
  cases bc
  · simp only [Bool.false_eq_true, if_false]
    cases is2
    · simp only [Bool.false_eq_true, if_false]
      by_cases h : tm.year = 0
      · rw [if_pos (by omega), if_pos h]
      · rw [if_neg (by omega), if_neg h]
    · simp only [if_true]
      rw [if_neg (by omega)]
      by_cases h : tm.year < 70
      · rw [if_pos h, if_pos h, chk32_ok (by omega)]; rfl
      · rw [if_neg h, if_neg h]
        by_cases h2 : tm.year < 100
        · rw [if_pos h2, if_pos h2, chk32_ok (by omega)]; rfl
        · rw [if_neg h2, if_neg h2]
  · simp only [if_true]
    by_cases h : tm.year = 0
    · rw [if_pos (by omega), if_pos h]
    · rw [if_neg (by omega), if_neg h, chk32_ok (by omega), Res.bind_ok, chk32_ok (by omega), Res.bind_ok]
      simp only [Res.pure_eq]
      rw [show -(tm.year - 1) = 1 - tm.year by omega]

theorem january (y : Int) : dayNumber ⟨y, 1, 1⟩ = daysBeforeYear y - daysBeforeYear 2000 := by
  unfold dayNumber
  simp [daysInMonths]

theorem january_bounds {y k : Int} {n : Nat} (hn : 1 ≤ n ∧ n ≤ 366) (hk : dayNumber ⟨y, 1, 1⟩ + n - 1 = k)
    (hr : DateRange k) : -4713 ≤ y ∧ y ≤ 5874898 ∧ 0 ≤ k + 2451545 ∧ k + 2451545 ≤ 2147483647 := by
  have h1 : dayNumber lastDay = 2145031948 := by decide
  have h2 : dayNumber firstDay = -2451545 := by decide
  unfold DateRange at hr
  rw [january] at hk
  unfold daysBeforeYear at hk
  omega

/-- The final check of a day by its number. -/
theorem validateDate_doy (p : Profile) (tm : PgTime) {m : Nat} (is2 bc : Bool) (hm : m &&& 14 = 14)
    (hd : m &&& 32768 = 32768) (hy : 0 ≤ tm.year ∧ tm.year ≤ 2147483647) {n : Nat} (hn : 1 ≤ n ∧ n ≤ 366)
    (hyd : tm.yday = n)
    (hr : ∀ y, yearOf tm.year is2 bc = some y → DateRange (dayNumber ⟨y, 1, 1⟩ + n - 1)) :
    match yearOf tm.year is2 bc with
    | none => tm.validateDate p m false is2 bc = .err .overflow
    | some y => tm.validateDate p m false is2 bc =
        .ok (tm.setYmd (j2dCore (dayNumber ⟨y, 1, 1⟩ + n - 1 + 2451545))) := by
  have b2 : hasBits m 32768 = true := by unfold hasBits; rw [hd]; rfl
  unfold PgTime.validateDate
  rw [validateYear_gen p tm is2 bc hm hy]
  cases hyo : yearOf tm.year is2 bc with
  | none => rfl
  | some y =>
    have hrange := hr y hyo
    obtain ⟨y1, y2, k1, k2⟩ := january_bounds hn rfl hrange
    simp only [Res.bind_ok]
    have hj : jdn y 1 1 = dayNumber ⟨y, 1, 1⟩ + 2451545 := rfl
    have hdoy : PgTime.validateDoy p { tm with year := y } m =
        .ok (tm.setYmd (j2dCore (dayNumber ⟨y, 1, 1⟩ + n - 1 + 2451545))) := by
      unfold PgTime.validateDoy
      rw [b2]
      simp only [if_true]
      rw [date2julian_eq p y 1 1 y1 y2 (by omega) (by omega) (by omega) (by omega) (by omega), Res.bind_ok, hyd, hj]
      have k3 : dayNumber ⟨y, 1, 1⟩ + n - 1 ≤ 2145031948 := by
        have h1 : dayNumber lastDay = 2145031948 := by decide
        unfold DateRange at hrange
        omega
      rw [chk32_ok (by omega), Res.bind_ok, chk32_ok (by omega), Res.bind_ok,
        show dayNumber ⟨y, 1, 1⟩ + 2451545 + (n : Int) - 1 = dayNumber ⟨y, 1, 1⟩ + n - 1 + 2451545 by omega,
        julian2date_core p _ (by omega) (by omega), Res.bind_ok, ← hyd]
      rfl
    rw [hdoy, Res.bind_ok, validateMonthDay_gen _ hm, if_pos]
    exact (j2dCore_spec _).2

section
variable {p : Profile} {order : DateOrder} {ft : List TokenField} {i : Nat} {d : Dec}

theorem nv_doy {f : Bytes} {v : Int} {ht : Bool} {m : Nat} (s : NumS) (hl : f.length = 3) (hm : m &&& 14 = 4)
    (hv : 1 ≤ v ∧ v ≤ 366) :
    decodeNumberVal f v ht m order s = (.ok (), ⟨32778, { s.tm with yday := v }, s.fsec, s.is2⟩) := by
  unfold decodeNumberVal
  rw [St.ite_run, if_pos ⟨hl, hm, hv.1, hv.2⟩]
  rfl

theorem nv_noDoy {f : Bytes} {v : Int} {ht : Bool} {m : Nat} (s : NumS) (hm : m &&& 14 = 4)
    (hv : ¬ (1 ≤ v ∧ v ≤ 366)) :
    decodeNumberVal f v ht m order s = (.ok (), ⟨2, { s.tm with mon := v }, s.fsec, s.is2⟩) := by
  unfold decodeNumberVal
  rw [St.ite_run, if_neg (fun h => hv h.2.2)]
  unfold numberByMask
  simp only [hm]
  rfl

theorem dateSplit_two {a b : Bytes} {x : Nat} (hx : isSep x) (ha : Digits a) (na : a ≠ [])
    (hb : Digits b) (nb : b ≠ []) (fuel : Nat) (hf : 3 ≤ fuel) :
    dateSplit fuel (a ++ x :: b) 0 = .ok [a, b] := by
  obtain ⟨k, rfl⟩ : ∃ k, fuel = k + 3 := ⟨fuel - 3, by omega⟩
  have h3 : dateSplit (k + 1) [] 2 = .ok [] := rfl
  have h2 := dateSplit_number (fuel := k + 1) (nf := 1) (pre := [x]) hb nb (Stops.nil _) (by omega) h3
    (by intro y hy; cases hy with | head => exact hx.notAlnum | tail _ h => cases h)
  rw [List.append_nil] at h2
  exact dateSplit_number (fuel := k + 2) (nf := 0) (pre := []) ha na (Stops.cons hx.notDigit) (by omega) h2
    (by intro y hy; cases hy)

/-- Decoding a year and three digits. -/
theorem decodeDate_doy {a b : Bytes} {x : Nat} (hx : isSep x) (ha : Digits a) (na : a ≠ []) (hb : Digits b)
    (hb3 : b.length = 3) (hy : 3 ≤ a.length ∨ order = .ymd) (hs : d.fMask = 0) :
    if NumOk a ∧ 1 ≤ value b ∧ value b ≤ 366 then
      decodeDate plainLook (a ++ x :: b) order (d, ()) =
        (.ok (), ({ d with tm := { d.tm with year := value a, yday := value b },
                           is2 := decide (a.length ≤ 2), tMask := 32782 }, ()))
    else ∃ e s', decodeDate plainLook (a ++ x :: b) order (d, ()) = (.err e, s') := by
  have nb : b ≠ [] := by intro h; rw [h] at hb3; cases hb3
  have kb : NumOk b := by
    have := value_lt hb
    rw [hb3] at this
    exact ⟨by omega, by omega⟩
  have hsp := dateSplit_two hx ha na hb nb ((a ++ x :: b).length + 1) (by
    have := List.length_pos_iff.2 na
    simp; omega)
  have htp := textPass_numbers plainLook [a, b] 0
    (({ tm := d.tm, is2 := d.is2, fMask := 0 } : DateS), ()) (by
      intro f hf
      simp only [List.mem_cons, List.not_mem_nil, or_false] at hf
      rcases hf with rfl | rfl <;> assumption)
  by_cases ka : NumOk a
  · have n1 := numPass_year (fs := [some b]) (tm := d.tm) (is2 := d.is2) (t := 0) (d := 0) (m := 0) (x := 0) (ht := false)
      (order := order) ha na ka (Or.inl ⟨by decide, hy⟩) (by decide)
    by_cases hv : 1 ≤ value b ∧ value b ≤ 366
    · rw [if_pos ⟨ka, hv⟩]
      have n2 := numPass_step (fs := []) (order := order) (f := b)
        (s := ⟨{ d.tm with year := value a }, decide (a.length ≤ 2), 0 ||| 4, 4, 0 ||| 4, 0, false⟩) hb nb kb
        (nv_doy _ hb3 (by simp) (by omega)) (by simp)
      have hbody : dateBody plainLook (a ++ x :: b) order
          (({ tm := d.tm, is2 := d.is2, fMask := d.fMask } : DateS), ()) =
          (.ok (), (⟨{ d.tm with year := value a, yday := value b }, decide (a.length ≤ 2), 32782, 32778, 32782, 0,
            false⟩, ())) := by
        unfold dateBody
        rw [hs, hsp, St.lift_ok_bind, St.bind_ok htp, List.map_cons, List.map_cons, List.map_nil,
          St.bind_ok (noLook_run (n1.trans (n2.trans rfl))), St.bind_ok (noLook_run (St.get_run _)), St.ite_run,
          if_neg (by simp [DateS.after])]
        simp [DateS.after, St.pure_run]
      exact decodeDate_run hbody
    · rw [if_neg (fun h => hv h.2)]
      have n2 := numPass_step (fs := []) (order := order) (f := b)
        (s := ⟨{ d.tm with year := value a }, decide (a.length ≤ 2), 0 ||| 4, 4, 0 ||| 4, 0, false⟩) hb nb kb
        (nv_noDoy _ (by simp) (by omega)) (by simp)
      have hbody : ∃ s', dateBody plainLook (a ++ x :: b) order
          (({ tm := d.tm, is2 := d.is2, fMask := d.fMask } : DateS), ()) = (.err .invalid, s') := by
        unfold dateBody
        rw [hs, hsp, St.lift_ok_bind, St.bind_ok htp, List.map_cons, List.map_cons, List.map_nil,
          St.bind_ok (noLook_run (n1.trans (n2.trans rfl))), St.bind_ok (noLook_run (St.get_run _)), St.ite_run,
          if_pos (by simp [DateS.after])]
        exact ⟨_, rfl⟩
      obtain ⟨⟨s', c'⟩, hbody⟩ := hbody
      exact ⟨_, _, decodeDate_run hbody⟩
  · rw [if_neg (fun h => ka h.1)]
    obtain ⟨s', hnp⟩ := numPass_bad (fs := [some b]) (order := order)
      (s := { tm := d.tm, is2 := d.is2, fMask := 0 }) ha na ka
    have hbody : dateBody plainLook (a ++ x :: b) order
        (({ tm := d.tm, is2 := d.is2, fMask := d.fMask } : DateS), ()) = (.err .overflow, (s', ())) := by
      unfold dateBody
      rw [hs, hsp, St.lift_ok_bind, St.bind_ok htp, List.map_cons, List.map_cons, List.map_nil,
        St.bind_err (noLook_run hnp)]
    exact ⟨_, _, decodeDate_run hbody⟩

/-- The fields of a day by its number. -/
def yearDayFields (D : YearDayText) : List Field :=
  if D.sep = 32 then [(.number, D.year), (.number, D.day)]
  else [(if D.sep = 46 then .number else .date, D.bytes)]

def YearDayFits (D : YearDayText) : Prop := NumOk D.year ∧ 1 ≤ value D.day ∧ value D.day ≤ 366

instance (D : YearDayText) : Decidable (YearDayFits D) := by unfold YearDayFits; infer_instance

/-- The state after a day by its number. -/
def yearDayDec (D : YearDayText) (t : Nat) : Dec :=
  { tm := { year := value D.year, yday := value D.day }, is2 := decide (D.year.length ≤ 2), tMask := t, fMask := 32782 }

theorem loop_doyJoined {D : YearDayText} (hy : 3 ≤ D.year.length ∨ order = .ymd) (hd : DigitsOf 3 3 D.day)
    (hs : D.sep = 45 ∨ D.sep = 47 ∨ D.sep = 46) (hyr : DigitsOf 1 10 D.year) :
    if YearDayFits D then
      ∃ t, ∀ ft i rest, dateTimeLoop p plainLook order ft (yearDayFields D ++ rest) i ({}, ()) =
        dateTimeLoop p plainLook order ft rest (i + (yearDayFields D).length) (yearDayDec D t, ())
    else ∀ ft i rest, ∃ e s, dateTimeLoop p plainLook order ft (yearDayFields D ++ rest) i ({}, ()) = (.err e, s) := by
  have l3 : D.day.length = 3 := by have := hd.2; omega
  have ny := DigitsOf.ne hyr (by omega)
  have hx : isSep D.sep := by unfold isSep; omega
  have hf := decodeDate_doy (d := {}) hx hyr.1 ny hd.1 l3 hy rfl
  have hF : yearDayFields D = [(if D.sep = 46 then .number else .date, D.bytes)] := by
    unfold yearDayFields; rw [if_neg (by omega)]
  rw [hF]
  have htok : ∀ ft i, dateTimeField p plainLook order ft i (if D.sep = 46 then .number else .date, D.bytes) ({}, ()) =
      (do decodeDate plainLook D.bytes order; noLook addMask) (({}, ()) : Dec × Unit) := by
    intro ft i
    by_cases h46 : D.sep = 46
    · rw [if_pos h46]
      have e : numberToken p plainLook D.bytes order (({}, ()) : Dec × Unit) =
          decodeDate plainLook D.bytes order ({}, ()) := by
        have hdot : dotPos D.bytes ≠ D.bytes.length := by
          unfold dotPos YearDayText.bytes
          rw [h46, takeWhile_span (p := fun b : Nat => decide (b ≠ 46)) (by
            intro b hb
            have := hyr.1 b hb
            simp; omega) (Stops.cons (by simp))]
          simp
        have hlen : D.bytes.length ≤ 14 := by
          have := hyr.2
          simp [YearDayText.bytes]; omega
        unfold numberToken
        rw [St.bind_ok (noLook_run (St.get_run _)), St.ite_run, if_neg (by decide), St.ite_run,
          if_pos ⟨hdot, by decide, hlen⟩]
      unfold dateTimeField
      simp only
      rw [St.bind_run, e, ← St.bind_run]
    · rw [if_neg h46]
      have e : dateToken p plainLook D.bytes order (({}, ()) : Dec × Unit) =
          decodeDate plainLook D.bytes order ({}, ()) := by
        unfold dateToken
        rw [St.bind_ok (noLook_run (St.get_run _)), St.ite_run, if_neg (by decide), St.ite_run,
          if_neg (by decide)]
      unfold dateTimeField
      simp only
      rw [St.bind_run, e, ← St.bind_run]
  by_cases hk : NumOk D.year ∧ 1 ≤ value D.day ∧ value D.day ≤ 366
  · rw [if_pos (show YearDayFits D from hk)]
    rw [if_pos hk] at hf
    refine ⟨32782, fun ft i rest => ?_⟩
    refine loop_cons ?_
    rw [htok]
    unfold YearDayText.bytes
    rw [St.bind_ok hf, noLook_run (addMask_run (by simp))]
    simp [yearDayDec]
  · rw [if_neg (show ¬ YearDayFits D from hk)]
    rw [if_neg hk] at hf
    obtain ⟨e, s', hf⟩ := hf
    intro ft i rest
    refine ⟨e, s', loop_cons_err ?_⟩
    rw [htok]
    unfold YearDayText.bytes
    rw [St.bind_err hf]
theorem loop_doySpaced {D : YearDayText} (hy : 3 ≤ D.year.length ∨ order = .ymd) (hd : DigitsOf 3 3 D.day)
    (hs : D.sep = 32) (hyr : DigitsOf 1 5 D.year) (hv : 1 ≤ value D.day ∧ value D.day ≤ 366) :
    if YearDayFits D then
      ∃ t, ∀ ft i rest, dateTimeLoop p plainLook order ft (yearDayFields D ++ rest) i ({}, ()) =
        dateTimeLoop p plainLook order ft rest (i + (yearDayFields D).length) (yearDayDec D t, ())
    else ∀ ft i rest, ∃ e s, dateTimeLoop p plainLook order ft (yearDayFields D ++ rest) i ({}, ()) = (.err e, s) := by
  have nd := DigitsOf.ne hd (by omega)
  have l3 : D.day.length = 3 := by have := hd.2; omega
  have ny := DigitsOf.ne hyr (by omega)
  have ka : NumOk D.year := by
    have := value_lt hyr.1
    have h5 := hyr.2.2
    have : 10 ^ D.year.length ≤ 10 ^ 5 := Nat.pow_le_pow_right (by omega) h5
    exact ⟨by omega, by omega⟩
  have kb : NumOk D.day := by
    have := value_lt hd.1
    rw [l3] at this
    exact ⟨by omega, by omega⟩
  rw [if_pos (show YearDayFits D from ⟨ka, hv⟩)]
  have hF : yearDayFields D = [(.number, D.year), (.number, D.day)] := by
    unfold yearDayFields; rw [if_pos hs]
  rw [hF]
  refine ⟨32778, fun ft i rest => ?_⟩
  have hn : ∀ {f : Bytes} {d : Dec} {n : NumS} {i : Nat}, Digits f → f ≠ [] → NumOk f → f.length < 6 → d.pType = .number →
      decodeNumberVal f (value f) false d.fMask order ⟨0, d.tm, d.fSec, d.is2⟩ = (.ok (), n) →
      n.tMask &&& d.fMask = 0 →
      dateTimeField p plainLook order ft i (.number, f) (d, ()) =
        (.ok (), ({ d with tm := n.tm, fSec := n.fsec, is2 := n.is2, tMask := n.tMask, fMask := d.fMask ||| n.tMask },
          ())) := by
    intro f d n i hf nf hk hl hp hv hm
    have hn : numberToken p plainLook f order (d, ()) =
        (.ok (), ({ d with tm := n.tm, fSec := n.fsec, is2 := n.is2, tMask := n.tMask }, ())) := by
      unfold numberToken
      rw [St.bind_ok (noLook_run (St.get_run _)), St.ite_run, if_neg (by rw [hp]; decide), St.ite_run,
        if_neg (by rw [dotPos_digits hf]; tauto), St.ite_run, if_neg (by rw [dotPos_digits hf]; tauto), St.ite_run,
        if_neg (by omega)]
      refine noLook_run ?_
      unfold onNum
      have e := decodeNumber_digits hf nf false d.fMask order ⟨d.tMask, d.tm, d.fSec, d.is2⟩
      rw [if_pos hk] at e
      simp only [St.zoom, e, hv]
    unfold dateTimeField
    simp only
    rw [St.bind_ok hn, noLook_run (addMask_run hm)]
  have s1 : dateTimeField p plainLook order ft i (.number, D.year) ({}, ()) =
      (.ok (), ({ tm := { year := value D.year }, is2 := decide (D.year.length ≤ 2), tMask := 4, fMask := 4 }, ())) := by
    rw [hn (d := {}) hyr.1 ny ka (by have := hyr.2; omega) rfl (nv_year _ (Or.inl ⟨by decide, hy⟩)) (by simp)]
    simp
  have s2 : dateTimeField p plainLook order ft (i + 1) (.number, D.day)
      ({ tm := { year := value D.year }, is2 := decide (D.year.length ≤ 2), tMask := 4, fMask := 4 }, ()) =
      (.ok (), (yearDayDec D 32778, ())) := by
    have m1 : (4 : Nat) &&& 14 = 4 := rfl
    have m2 : (32778 : Nat) &&& 4 = 0 := rfl
    have m3 : (4 : Nat) ||| 32778 = 32782 := rfl
    have h := hn (i := i + 1) (n := ⟨32778, { year := value D.year, yday := value D.day }, 0, decide (D.year.length ≤ 2)⟩)
      (d := { tm := { year := value D.year }, is2 := decide (D.year.length ≤ 2), tMask := 4, fMask := 4 })
      hd.1 nd kb (by omega) rfl (nv_doy _ l3 m1 (by omega)) m2
    simp only [m3] at h
    exact h
  exact Eq.trans (loop_cons s1) (loop_cons s2)

theorem loop_doy {D : YearDayText} (hD : D.Ok order) :
    if YearDayFits D then
      ∃ t, ∀ ft i rest, dateTimeLoop p plainLook order ft (yearDayFields D ++ rest) i ({}, ()) =
        dateTimeLoop p plainLook order ft rest (i + (yearDayFields D).length) (yearDayDec D t, ())
    else ∀ ft i rest, ∃ e s, dateTimeLoop p plainLook order ft (yearDayFields D ++ rest) i ({}, ()) = (.err e, s) := by
  obtain ⟨hy, hd, hs⟩ := hD
  rcases hs with ⟨hs, hyr⟩ | ⟨hs, hyr, hv⟩
  · exact loop_doyJoined hy hd hs hyr
  · exact loop_doySpaced hy hd hs hyr hv

/-- What the final check gives. -/
def yearDayYmd (D : YearDayText) : Bool → Option YMD := fun b => (D.number b).map (fun k => julianYmd (k + 2451545))

/-- A day by its number. -/
theorem reads_yearDay {D : YearDayText} (hD : D.Ok order) (b : Bool) (hr : ∀ k, D.number b = some k → DateRange k) :
    ReadsDate p order {} (yearDayFields D) (YearDayFits D) b (yearDayYmd D) := by
  have hl := loop_doy (p := p) hD
  have hyr : DigitsOf 1 10 D.year := by
    obtain ⟨-, -, ⟨-, h⟩ | ⟨-, h, -⟩⟩ := hD
    · exact h
    · exact ⟨h.1, h.2.1, by have := h.2.2; omega⟩
  refine ⟨?_, ?_, ?_⟩
  · intro hf
    rw [if_pos hf] at hl
    obtain ⟨t, hl⟩ := hl
    obtain ⟨hk, hv⟩ := hf
    refine ⟨yearDayDec D t, ⟨rfl, rfl, rfl, rfl, by simp [yearDayDec], rfl, rfl, rfl, rfl, ?_⟩, fun ft i rest => hl ft i rest⟩
    intro tm m e1 e2 e3 e4 e5
    have m14 : m &&& 14 = 14 := by
      have : (m &&& 32782) &&& 14 = 14 := by rw [e5]; simp [yearDayDec]
      rwa [Nat.and_assoc] at this
    have mdoy : m &&& 32768 = 32768 := by
      have : (m &&& 32782) &&& 32768 = 32768 := by rw [e5]; simp [yearDayDec]
      rwa [Nat.and_assoc] at this
    have e1 : tm.year = value D.year := e1
    have e4 : tm.yday = value D.day := e4
    have hk2 := hk.2
    have ey : yearOf tm.year (yearDayDec D t).is2 b = inputYear D.year b := by
      rw [e1]; exact yearOf_eq hyr.1 b
    have hnum : ∀ y, inputYear D.year b = some y → D.number b = some (dayNumber ⟨y, 1, 1⟩ + value D.day - 1) := by
      intro y hy
      unfold YearDayText.number
      rw [hy]
      simp only
      rw [if_pos hv]
    have h := validateDate_doy p tm (m := m) (yearDayDec D t).is2 b m14 mdoy (by rw [e1]; omega) hv e4 (by
      intro y hy
      rw [ey] at hy
      exact hr _ (hnum y hy))
    rw [ey] at h
    have j : (yearDayDec D t).isJulian = false := rfl
    rw [j]
    unfold yearDayYmd
    cases hy : inputYear D.year b with
    | none =>
      have : D.number b = none := by unfold YearDayText.number; rw [hy]
      rw [this]
      rw [hy] at h
      exact ⟨_, h⟩
    | some y =>
      rw [hnum y hy]
      rw [hy] at h
      exact ⟨julianYmd_real _, h⟩
  · intro hf
    rw [if_neg hf] at hl
    exact hl
  · intro hf c hc
    exfalso
    unfold yearDayYmd at hc
    cases hn : D.number b with
    | none => rw [hn] at hc; cases hc
    | some k =>
      have hrange := hr k hn
      unfold YearDayText.number at hn
      cases hy : inputYear D.year b with
      | none => rw [hy] at hn; cases hn
      | some y =>
        rw [hy] at hn
        simp only at hn
        by_cases hv : 1 ≤ value D.day ∧ value D.day ≤ 366
        · rw [if_pos hv] at hn
          obtain ⟨b1, b2, -⟩ := january_bounds hv (Option.some.inj hn) hrange
          have hbig : ¬ value D.year ≤ 2147483647 := fun h => hf ⟨⟨hyr.2.2, h⟩, hv⟩
          rw [← yearOf_eq hyr.1] at hy
          have h2 : decide (D.year.length ≤ 2) = false := by
            by_contra h2
            have h2 : D.year.length ≤ 2 := by simpa using h2
            have := value_lt hyr.1
            have : 10 ^ D.year.length ≤ 10 ^ 2 := Nat.pow_le_pow_right (by omega) h2
            omega
          rw [h2] at hy
          unfold yearOf at hy
          cases b <;> simp only [Bool.false_eq_true, if_false, if_true] at hy <;> rw [if_neg (by omega)] at hy <;>
            have hy := Option.some.inj hy <;> omega
        · rw [if_neg hv] at hn; cases hn

end

/-- Scanning a year and three digits after `-` or `/`. -/
theorem Scans.twoDate {u : TokenField} {a b rest : Bytes} {x : Nat} {l : List Field} (hx : x = 45 ∨ x = 47)
    (ha : Digits a) (na : a ≠ []) (hb : Digits b) (nb : b ≠ [])
    (hr : Stops (fun y => y = x || isDigit y) rest) (h : Scans u rest l) :
    Scans u (a ++ x :: (b ++ rest)) ((.date, a ++ x :: b) :: l) := by
  have hs : isSep x := by unfold isSep; omega
  refine Scans.digit ha na ?_ (by simp; omega) (by simp) h
  rw [scanDigit, takeWhile_span (digits_isDigit ha) (Stops.cons hs.notDigit),
    dropWhile_span (digits_isDigit ha) (Stops.cons hs.notDigit)]
  simp only
  obtain ⟨y, t, e, hy, -⟩ := digit_head (r := rest) hb nb
  have hr1 : Stops isDigit rest := by
    intro z hz
    have := hr z hz
    simp only [Bool.or_eq_false_iff] at this
    exact this.2
  have hsd : scanDelim x (b ++ rest) = (.date, x :: b, rest) := by
    rw [e, scanDelim, if_pos hy, ← e, dropWhile_span (digits_isDigit hb) hr1, takeWhile_span (digits_isDigit hb) hr1]
    simp only
    rw [if_neg, if_neg (by omega)]
    intro hh
    have := hr x hh
    simp at this
  rw [hsd]
  rcases hx with rfl | rfl <;> simp

theorem scans_yearDay (u : TokenField) {order : DateOrder} {D : YearDayText} (hD : D.Ok order) {r : Bytes}
    {l : List Field} (hr : Loose r) (h : Scans u r l) : Scans u (D.bytes ++ r) (yearDayFields D ++ l) := by
  obtain ⟨hy, hd, hs⟩ := hD
  have nd := DigitsOf.ne hd (by omega)
  rcases hs with ⟨hs, hyr⟩ | ⟨hs, hyr, -⟩
  · have ny := DigitsOf.ne hyr (by omega)
    unfold yearDayFields
    rw [if_neg (by omega)]
    by_cases h46 : D.sep = 46
    · rw [if_pos h46]
      have := Scans.numberDot (u := u) hyr.1 ny hd.1 nd (Loose.number hr) h
      simpa [YearDayText.bytes, h46] using this
    · rw [if_neg h46]
      have := Scans.twoDate (u := u) (x := D.sep) (by omega) hyr.1 ny hd.1 nd (Loose.date hr (by unfold isSep; omega)) h
      simpa [YearDayText.bytes] using this
  · have ny := DigitsOf.ne hyr (by omega)
    unfold yearDayFields
    rw [if_pos hs]
    have s1 := Scans.number (u := u) hd.1 nd (Loose.number hr) h
    have := Scans.number (u := u) hyr.1 ny (rest := 32 :: (D.day ++ r)) (Stops.cons (by decide)) (Scans.space s1)
    simpa [YearDayText.bytes, hs] using this

theorem yearDay_len {order : DateOrder} {D : YearDayText} (hD : D.Ok order) :
    D.bytes ≠ [] ∧ D.bytes.length ≤ 60 ∧ (yearDayFields D).length ≤ 18 := by
  obtain ⟨-, hd, hs⟩ := hD
  have := hd.2
  have : D.year.length ≤ 10 := by
    rcases hs with ⟨-, h⟩ | ⟨-, h, -⟩ <;> have := h.2 <;> omega
  refine ⟨by simp [YearDayText.bytes], by simp [YearDayText.bytes]; omega, ?_⟩
  unfold yearDayFields
  split <;> simp

end Pg
