import Verif.Lemmas.Vocabulary
import Verif.Lemmas.MinuteRun
import Verif.Spec.Shuffle

/-!
# Fields whose order does not matter
-/

namespace Pg
open Spec

/-! ## What a field does to the decoded values -/

/-- One assignment of the decoder. -/
inductive Upd where
  | none
  | clock (h m s f : Int)
  | weekday (v : Int)
  | half (v : Int)
  | era (b : Bool)
  | year (v : Int) (two : Bool)
  | month (v : Int)
  | day (v : Int)
  | yearDay (v : Int)
  | hhmm (h m : Int)
  | name (v : Int)
  | dayName (v : Int)

/-- The fields it claims. -/
def Upd.mask : Upd → Nat
  | .none => 0
  | .clock .. => DTK_TIME_M
  | .weekday _ => TokenType.dow.mask
  | .half _ => TokenType.ampm.mask
  | .era _ => TokenType.adbc.mask
  | .year .. => DTK_YEAR_M
  | .month _ => DTK_MONTH_M
  | .day _ => DTK_DAY_M
  | .yearDay _ => DOY_M ||| DTK_MONTH_M ||| DTK_DAY_M
  | .hhmm .. => DTK_TIME_M
  | .name _ => DTK_MONTH_M
  | .dayName _ => DTK_DAY_M

/-- The new values. -/
def Upd.upd : Upd → Dec → Dec
  | .none, d => d
  | .clock h m s f, d => { d with tm := { d.tm with hour := h, min := m, sec := s }, fSec := f }
  | .weekday v, d => { d with tm := { d.tm with wday := v } }
  | .half v, d => { d with mer := v }
  | .era b, d => { d with bc := b }
  | .year v t, d => { d with tm := { d.tm with year := v }, is2 := t }
  | .month v, d => { d with tm := { d.tm with mon := v } }
  | .day v, d => { d with tm := { d.tm with mday := v } }
  | .yearDay v, d => { d with tm := { d.tm with yday := v } }
  | .hhmm h m, d => { d with tm := { d.tm with hour := h, min := m, sec := 0 } }
  | .name v, d => { d with tm := { d.tm with mon := v }, textMonth := true }
  | .dayName v, d => { d with tm := { d.tm with mday := d.tm.mon, mon := v }, textMonth := true }

/-- Set the mask of known fields. -/
def Dec.known (d : Dec) (m : Nat) : Dec := { d with fMask := m }

/-- Claim the fields and assign. -/
def Upd.act (x : Upd) (d : Dec) : Option Dec :=
  if x.mask &&& d.fMask ≠ 0 then Option.none else some ((x.upd d).known (d.fMask ||| x.mask))

/-- An assignment that does not depend on the date. -/
def Upd.Loose : Upd → Prop
  | .none | .clock .. | .weekday _ | .half _ | .era _ => True
  | _ => False

theorem upd_comm {x y : Upd} (hx : x.Loose) (h : x.mask &&& y.mask = 0) (d : Dec) : x.upd (y.upd d) = y.upd (x.upd d) := by
  cases x <;> first | exact absurd hx id | (cases y <;> first | rfl | exact absurd h (by simp only [Upd.mask]; decide))

theorem upd_known (x : Upd) (d : Dec) (m : Nat) : x.upd (d.known m) = (x.upd d).known m := by cases x <;> rfl
theorem known_known (d : Dec) (m m' : Nat) : (d.known m).known m' = d.known m' := rfl
theorem known_fMask (d : Dec) (m : Nat) : (d.known m).fMask = m := rfl
theorem known_mon (d : Dec) (m : Nat) : (d.known m).tm.mon = d.tm.mon := rfl
theorem known_text (d : Dec) (m : Nat) : (d.known m).textMonth = d.textMonth := rfl

/-- What a field does: the assignment may depend on the date so far. -/
structure Act where
  pick : Nat → Int → Bool → Option Upd

/-- Do it. -/
def Act.run (a : Act) (d : Dec) : Option Dec := (a.pick (d.fMask &&& DTK_DATE_M) d.tm.mon d.textMonth).bind fun x => x.act d

/-- Always the same loose assignment. -/
def Act.Loose (a : Act) : Prop := ∃ o : Option Upd, (∀ x, o = some x → x.Loose) ∧ ∀ m v t, a.pick m v t = o

theorem loose_mask {x : Upd} (h : x.Loose) : x.mask &&& DTK_DATE_M = 0 := by
  cases x <;> first | exact absurd h id | (simp only [Upd.mask]; decide)

theorem loose_mon {x : Upd} (h : x.Loose) (d : Dec) : (x.upd d).tm.mon = d.tm.mon ∧ (x.upd d).textMonth = d.textMonth := by
  cases x <;> first | exact absurd h id | exact ⟨rfl, rfl⟩

theorem upd_fMask (x : Upd) (d : Dec) : (x.upd d).fMask = d.fMask := by cases x <;> rfl
theorem upd_tMask (x : Upd) (d : Dec) : (x.upd d).tMask = d.tMask := by cases x <;> rfl
theorem upd_pType (x : Upd) (d : Dec) : (x.upd d).pType = d.pType := by cases x <;> rfl

/-- A loose field may be exchanged with any other. -/
theorem run_comm {a b : Act} (ha : a.Loose) (d : Dec) : (a.run d).bind b.run = (b.run d).bind a.run := by
  obtain ⟨o, ho, hp⟩ := ha
  unfold Act.run
  rw [hp]
  cases o with
  | none =>
    simp only [hp]
    cases hb : b.pick (d.fMask &&& DTK_DATE_M) d.tm.mon d.textMonth with
    | none => rfl
    | some y => simp only [Option.bind]; cases y.act d <;> rfl
  | some x =>
    have hx := ho x rfl
    simp only [hp, Option.bind_some]
    have key : ∀ d', x.act d = some d' → b.pick (d'.fMask &&& DTK_DATE_M) d'.tm.mon d'.textMonth =
        b.pick (d.fMask &&& DTK_DATE_M) d.tm.mon d.textMonth := by
      intro d' h
      unfold Upd.act at h
      split at h
      · cases h
      · cases h
        rw [known_fMask, known_mon, known_text, (loose_mon hx d).1, (loose_mon hx d).2, Nat.and_or_distrib_right, loose_mask hx, Nat.or_zero]
    cases hb : b.pick (d.fMask &&& DTK_DATE_M) d.tm.mon d.textMonth with
    | none =>
      rw [hb] at key
      cases h : x.act d with
      | none => rfl
      | some d' => simp only [Option.bind_some, key d' h]; rfl
    | some y =>
      rw [hb] at key
      have e1 : ((x.act d).bind fun d' => (b.pick (d'.fMask &&& DTK_DATE_M) d'.tm.mon d'.textMonth).bind fun z => z.act d') =
          (x.act d).bind y.act := by
        cases h : x.act d with
        | none => rfl
        | some d' => simp only [Option.bind_some, key d' h]
      have e2 : ((y.act d).bind fun d' => x.act d') = (y.act d).bind x.act := rfl
      simp only [Option.bind_some]
      rw [e1]
      unfold Upd.act
      by_cases h1 : x.mask &&& d.fMask = 0
      · by_cases h2 : y.mask &&& d.fMask = 0
        · simp only [known_fMask, h1, h2, ne_eq, not_true, if_false, Option.bind_some, Nat.and_or_distrib_left, Nat.zero_or]
          by_cases h3 : x.mask &&& y.mask = 0
          · rw [Nat.and_comm y.mask, if_neg (by simpa using h3), if_neg (by simpa using h3)]
            have k := upd_comm hx h3 d
            rw [upd_known, upd_known, known_known, known_known, k, Nat.or_assoc, Nat.or_assoc, Nat.or_comm x.mask]
          · rw [Nat.and_comm y.mask, if_pos h3, if_pos h3]
        · simp only [known_fMask, h1, h2, ne_eq, not_true, not_false_eq_true, if_true, if_false, Option.bind_some, Nat.and_or_distrib_left]
          rw [if_pos]
          · rfl
          · intro e; exact h2 (Nat.or_eq_zero_iff.1 e).1
      · by_cases h2 : y.mask &&& d.fMask = 0
        · simp only [known_fMask, h1, h2, ne_eq, not_true, not_false_eq_true, if_true, if_false, Option.bind_some, Nat.and_or_distrib_left]
          rw [if_pos]
          · rfl
          · intro e; exact h1 (Nat.or_eq_zero_iff.1 e).1
        · simp only [h1, h2, ne_eq, not_false_eq_true, if_true]
          rfl

/-! ## The decoder -/

/-- The mask of the last field does not matter. -/
def Dec.rest (d : Dec) : Dec := { d with tMask := 0 }

/-- The values after a success. -/
def okDec (r : Res Unit × (Dec × Unit)) : Option Dec :=
  match r.1 with
  | .ok _ => some r.2.1.rest
  | _ => none

theorem rest_known (d : Dec) (m : Nat) : (d.known m).rest = d.rest.known m := rfl
theorem upd_rest (x : Upd) (d : Dec) : x.upd d.rest = (x.upd d).rest := by cases x <;> rfl

theorem run_rest (a : Act) (d : Dec) : a.run d.rest = (a.run d).map Dec.rest := by
  unfold Act.run
  rw [show d.rest.fMask = d.fMask from rfl, show d.rest.tm = d.tm from rfl, show d.rest.textMonth = d.textMonth from rfl]
  cases a.pick (d.fMask &&& DTK_DATE_M) d.tm.mon d.textMonth with
  | none => rfl
  | some x =>
    simp only [Option.bind_some, Upd.act, show d.rest.fMask = d.fMask from rfl, upd_rest]
    split <;> rfl

theorem run_pType {a : Act} {d d' : Dec} (h : a.run d = some d') : d'.pType = d.pType := by
  unfold Act.run at h
  cases hp : a.pick (d.fMask &&& DTK_DATE_M) d.tm.mon d.textMonth with
  | none => rw [hp] at h; cases h
  | some x =>
    rw [hp] at h
    simp only [Option.bind_some, Upd.act] at h
    split at h
    · cases h
    · cases h; exact upd_pType x d

/-- The field does this to the decoded values. -/
def Does (p : Profile) (order : DateOrder) (f : Field) (a : Act) : Prop :=
  ∀ ft i d, d.pType = .number → okDec (dateTimeField p plainLook order ft i f (d, ())) = (a.run d).map Dec.rest

/-- After the assignments of a field its mask is added. -/
theorem addMask_act (x : Upd) (d : Dec) {d1 : Dec} (h : d1 = { x.upd d with tMask := x.mask }) :
    okDec ((noLook addMask : St (Dec × Unit) Unit) (d1, ())) = (x.act d).map Dec.rest := by
  subst h
  have e : (x.upd d).fMask = d.fMask := upd_fMask x d
  simp only [noLook, addMask, bind, St.bind, St.get, Upd.act, e]
  by_cases h : x.mask &&& d.fMask = 0
  · simp only [h, ne_eq, not_true, if_false]
    simp only [St.mod, okDec, Option.map_some, e]
    rfl
  · simp only [h, ne_eq, not_false_eq_true, if_true]
    rfl

theorem word_does {p : Profile} {order : DateOrder} {w : Bytes} {ty : TokenType} {v : Int}
    (hw : tokenResult (lookupIn dateTable w) = (ty, v)) (hty : ty ≠ .ignoreDtf) (ft : List TokenField) (i : Nat) (d : Dec) :
    dateTimeField p plainLook order ft i (.string, w) (d, ()) =
      ((do noLook (wordAction ft i ty v); noLook addMask : St (Dec × Unit) Unit)) (d, ()) := by
  unfold dateTimeField wordToken
  simp only [bind, St.bind, lookDate, plainLook, searchDate_eq, hw, if_neg hty]
  cases h : (noLook (wordAction ft i ty v) : St (Dec × Unit) Unit) (d, ()) with
  | mk r s => cases r <;> rfl

theorem noise_does {p : Profile} {order : DateOrder} {w : Bytes} {v : Int} (hw : tokenResult (lookupIn dateTable w) = (.ignoreDtf, v)) :
    Does p order (.string, w) ⟨fun _ _ _ => some .none⟩ := by
  intro ft i d _
  unfold dateTimeField wordToken
  simp only [bind, St.bind, lookDate, plainLook, searchDate_eq, hw, if_true, pure, Act.run, Upd.act, Upd.mask, Option.bind_some, okDec]
  simp only [Nat.zero_and, ne_eq, not_true, if_false, Option.map_some, Nat.or_zero, Upd.upd]
  rfl

theorem weekday_does {p : Profile} {order : DateOrder} {w : Bytes} {v : Int} (hw : tokenResult (lookupIn dateTable w) = (.dow, v)) :
    Does p order (.string, w) ⟨fun _ _ _ => some (.weekday v)⟩ := by
  intro ft i d _
  rw [word_does hw (by decide)]
  exact addMask_act (.weekday v) d rfl

theorem half_does {p : Profile} {order : DateOrder} {w : Bytes} {v : Int} (hw : tokenResult (lookupIn dateTable w) = (.ampm, v)) :
    Does p order (.string, w) ⟨fun _ _ _ => some (.half v)⟩ := by
  intro ft i d _
  rw [word_does hw (by decide)]
  exact addMask_act (.half v) d rfl

theorem era_does {p : Profile} {order : DateOrder} {w : Bytes} {v : Int} (hw : tokenResult (lookupIn dateTable w) = (.adbc, v)) :
    Does p order (.string, w) ⟨fun _ _ _ => some (.era (v = 1))⟩ := by
  intro ft i d _
  rw [word_does hw (by decide)]
  exact addMask_act (.era (v = 1)) d rfl

theorem month_does {p : Profile} {order : DateOrder} {w : Bytes} {v : Int} (hw : tokenResult (lookupIn dateTable w) = (.month, v)) :
    Does p order (.string, w)
      ⟨fun m mon text => some (if m &&& DTK_MONTH_M ≠ 0 ∧ text = false ∧ m &&& DTK_DAY_M = 0 ∧ 1 ≤ mon ∧ mon ≤ 31 then .dayName v else .name v)⟩ := by
  intro ft i d _
  rw [word_does hw (by decide)]
  unfold Act.run
  simp only [Option.bind_some, Nat.and_assoc, show (14 : Nat) &&& 2 = 2 from rfl, show (14 : Nat) &&& 8 = 8 from rfl]
  refine (?_ : okDec ((noLook addMask : St (Dec × Unit) Unit) (((monthWord v) { d with tMask := TokenType.month.mask }).2, ())) = _)
  refine addMask_act _ d ?_
  simp only [monthWord, St.mod]
  split <;> rfl

/-- A clock time sets all of the clock. -/
theorem clock_does (p : Profile) (order : DateOrder) (w : Bytes) :
    ∃ o : Option Upd, (∀ x, o = some x → x.Loose) ∧ Does p order (.time, w) ⟨fun _ _ _ => o⟩ := by
  have tail : ∀ s : Bytes, (∃ sec f, ∃ hm : Bool, ∀ t : TimeS, timeTail s INTERVAL_FULL_RANGE t =
      (.ok (), ⟨t.tMask, { t.tm with sec := if hm then t.tm.min else sec, min := if hm then t.tm.hour else t.tm.min, hour := if hm then 0 else t.tm.hour }, f⟩)) ∨
      ∀ t : TimeS, ∀ u t', timeTail s INTERVAL_FULL_RANGE t ≠ (.ok u, t') := by
    intro s
    unfold timeTail
    cases s with
    | nil => exact Or.inl ⟨0, 0, false, fun t => rfl⟩
    | cons c r =>
      simp only
      by_cases h1 : c = 46
      · simp only [if_pos h1]
        cases hf : parseFractionalSecond (c :: r) with
        | ok f => exact Or.inl ⟨0, f, true, fun t => rfl⟩
        | err e => exact Or.inr fun t u t' h => by cases h
        | panic => exact Or.inr fun t u t' h => by cases h
      · simp only [if_neg h1]
        by_cases h2 : c = 58
        · simp only [if_pos h2]
          unfold timeSeconds
          cases hv : str2i32 r with
          | err e => exact Or.inr fun t u t' h => by cases h
          | panic => exact Or.inr fun t u t' h => by cases h
          | ok a =>
            obtain ⟨v, s⟩ := a
            cases s with
            | nil => exact Or.inl ⟨v, 0, false, fun t => rfl⟩
            | cons c' r' =>
              by_cases h3 : c' = 46
              · cases hf : parseFractionalSecond (c' :: r') with
                | ok f =>
                  refine Or.inl ⟨v, f, false, fun t => ?_⟩
                  simp only [bind, St.bind, St.lift, St.mod, if_pos h3, hf]
                  rfl
                | err e =>
                  refine Or.inr fun t u t' h => ?_
                  simp only [bind, St.bind, St.lift, St.mod, if_pos h3, hf] at h
                  cases h
                | panic =>
                  refine Or.inr fun t u t' h => ?_
                  simp only [bind, St.bind, St.lift, St.mod, if_pos h3, hf] at h
                  cases h
              · refine Or.inr fun t u t' h => ?_
                simp only [bind, St.bind, St.lift, St.mod, if_neg h3] at h
                cases h
        · simp only [if_neg h2]
          exact Or.inr fun t u t' h => by cases h
  have whole : (∃ h m sec f, ∀ t : TimeS, decodeTime w INTERVAL_FULL_RANGE t =
      (.ok (), ⟨DTK_TIME_M, { t.tm with hour := h, min := m, sec := sec }, f⟩)) ∨
      ∀ t : TimeS, ∀ u t', decodeTime w INTERVAL_FULL_RANGE t ≠ (.ok u, t') := by
    cases hv : str2i32 w with
    | err e => exact Or.inr fun t u t' h => by simp only [decodeTime, bind, St.bind, St.lift, St.mod, hv] at h; cases h
    | panic => exact Or.inr fun t u t' h => by simp only [decodeTime, bind, St.bind, St.lift, St.mod, hv] at h; cases h
    | ok a =>
      obtain ⟨v, s⟩ := a
      by_cases hc : ∃ r, s = 58 :: r
      · obtain ⟨r, rfl⟩ := hc
        simp only [decodeTime_colon hv]
        cases hm : str2i32 r with
        | err e => exact Or.inr fun t u t' h => by cases h
        | panic => exact Or.inr fun t u t' h => by cases h
        | ok b =>
          obtain ⟨m, s⟩ := b
          simp only [bind, St.bind, St.lift, St.mod, St.get]
          rcases tail s with ⟨sec, f, hm, ht⟩ | ht
          · simp only [ht]
            cases hm with
            | false =>
              simp only [Bool.false_eq_true, if_false]
              by_cases hb : badTime ⟨DTK_TIME_M, { hour := v, min := m, sec := sec }, f⟩ = true
              · refine Or.inr fun t u t' h => ?_
                rw [if_pos (by exact hb)] at h
                cases h
              · refine Or.inl ⟨v, m, sec, f, fun t => ?_⟩
                rw [if_neg (by exact hb)]
                rfl
            | true =>
              simp only [if_true]
              by_cases hb : badTime ⟨DTK_TIME_M, { hour := 0, min := v, sec := m }, f⟩ = true
              · refine Or.inr fun t u t' h => ?_
                rw [if_pos (by exact hb)] at h
                cases h
              · refine Or.inl ⟨0, v, m, f, fun t => ?_⟩
                rw [if_neg (by exact hb)]
                rfl
          · refine Or.inr fun t u t' h => ?_
            cases hx : timeTail s INTERVAL_FULL_RANGE ⟨DTK_TIME_M, { t.tm with hour := v, min := m }, t.fsec⟩ with
            | mk r s' =>
              simp only [hx] at h
              cases r with
              | ok a => exact ht _ _ _ hx
              | err e => cases h
              | panic => cases h
      · refine Or.inr fun t u t' h => ?_
        simp only [decodeTime, bind, St.bind, St.lift, St.mod, hv] at h
        split at h
        · exact hc ⟨_, rfl⟩
        · cases h
  rcases whole with ⟨h, m, sec, f, hd⟩ | hd
  · by_cases hl : h > HOURS_PER_DAY ∨ (h = HOURS_PER_DAY ∧ (m > 0 ∨ sec > 0 ∨ f > 0))
    · refine ⟨none, by simp, fun ft i d hp => ?_⟩
      simp only [dateTimeField, timeToken, bind, St.bind, St.get, noLook, hp, onTime, St.zoom, St.mod, hd, ne_eq, not_true, false_and,
        if_false, if_pos hl]
      rfl
    · refine ⟨some (.clock h m sec f), fun x hx => by cases hx; trivial, fun ft i d hp => ?_⟩
      refine Eq.trans ?_ (addMask_act (.clock h m sec f) d rfl)
      simp only [dateTimeField, timeToken, bind, St.bind, St.get, noLook, hp, onTime, St.zoom, St.mod, hd, ne_eq, not_true, false_and,
        if_false, if_neg hl]
      simp only [pure, Upd.upd, Upd.mask, ← hp]
  · refine ⟨none, by simp, fun ft i d hp => ?_⟩
    simp only [dateTimeField, timeToken, bind, St.bind, St.get, noLook, hp, onTime, St.zoom, St.mod, ne_eq, not_true, false_and, if_false]
    cases hx : decodeTime w INTERVAL_FULL_RANGE ⟨d.tMask, d.tm, d.fSec⟩ with
    | mk r s =>
      cases r with
      | ok a => exact absurd hx (hd _ _ _)
      | err e => rfl
      | panic => rfl

/-- What a number does. -/
def numberAct (order : DateOrder) (w : Bytes) : Act where
  pick m _ _ :=
    let v : Int := value w
    if w.length = 3 ∧ m = DTK_YEAR_M ∧ 1 ≤ v ∧ v ≤ 366 then some (.yearDay v)
    else if m = 0 then
      if w.length ≥ 3 ∨ order = .ymd then some (.year v (w.length ≤ 2))
      else if order = .dmy then some (.day v)
      else some (.month v)
    else if m = DTK_YEAR_M then some (.month v)
    else if m = DTK_MONTH_M then some (.day v)
    else if m = DTK_YEAR_MONTH_M then some (.day v)
    else if m = DTK_DAY_M then some (.month v)
    else if m = DTK_MONTH_DAY_M then some (.year v (w.length ≤ 2))
    else if m = DTK_DATE_M ∧ w.length = 4 then some (.hhmm (value (w.take 2)) (value (w.drop 2)))
    else none

theorem number_does (p : Profile) (order : DateOrder) {w : Bytes} (hw : Digits w) (nw : w ≠ []) (hl : w.length ≤ 5) :
    Does p order (.number, w) (numberAct order w) := by
  intro ft i d hp
  have hdot := dotPos_plain hw
  have hv : value w ≤ 2147483647 := by
    have h1 := value_lt hw
    have h2 : 10 ^ w.length ≤ 10 ^ 5 := Nat.pow_le_pow_right (by omega) hl
    omega
  have hnum : str2i32 w = .ok ((value w : Int), []) := by
    rw [str2i32_all hw nw, if_pos ⟨by omega, hv⟩]
  have e0 : dateTimeField p plainLook order ft i (.number, w) (d, ()) =
      (do noLook (onNum (decodeNumberVal w (value w) false d.fMask order)); noLook addMask : St (Dec × Unit) Unit) (d.rest, ()) := by
    have hn : ¬ w.length ≥ 6 := by omega
    have hd : decodeNumber w false d.fMask order ⟨d.tMask, d.tm, d.fSec, d.is2⟩ =
        decodeNumberVal w (value w) false d.fMask order ⟨0, d.tm, d.fSec, d.is2⟩ := by
      unfold decodeNumber
      simp only [bind, St.bind, St.mod, St.lift, hnum, if_neg (show ¬ [] = w from fun e => nw e.symm)]
    simp only [dateTimeField, numberToken, bind, St.bind, St.get, noLook, hp, hdot, hn, ne_eq, not_true, false_and, if_false, onNum, St.zoom, hd,
      Dec.rest]
  rw [e0]
  unfold Act.run
  generalize hm : d.fMask &&& DTK_DATE_M = m
  have fin : ∀ x : Upd, decodeNumberVal w (value w) false d.fMask order ⟨0, d.tm, d.fSec, d.is2⟩ =
      (.ok (), ⟨x.mask, (x.upd d).tm, d.fSec, (x.upd d).is2⟩) →
      { x.upd d with tMask := x.mask } = { d with tMask := x.mask, tm := (x.upd d).tm, is2 := (x.upd d).is2 } →
      okDec ((do noLook (onNum (decodeNumberVal w (value w) false d.fMask order)); noLook addMask : St (Dec × Unit) Unit) (d.rest, ())) =
        (x.act d).map Dec.rest := by
    intro x hx he
    refine Eq.trans ?_ (addMask_act x d rfl)
    rw [he]
    simp only [bind, St.bind, noLook, onNum, St.zoom]
    rw [show (⟨d.rest.tMask, d.rest.tm, d.rest.fSec, d.rest.is2⟩ : NumS) = ⟨0, d.tm, d.fSec, d.is2⟩ from rfl, hx]
    rfl
  have bad : (∃ e s, decodeNumberVal w (value w) false d.fMask order ⟨0, d.tm, d.fSec, d.is2⟩ = (.err e, s)) →
      okDec ((do noLook (onNum (decodeNumberVal w (value w) false d.fMask order)); noLook addMask : St (Dec × Unit) Unit) (d.rest, ())) = none := by
    rintro ⟨e, s, hx⟩
    simp only [bind, St.bind, noLook, onNum, St.zoom]
    rw [show (⟨d.rest.tMask, d.rest.tm, d.rest.fSec, d.rest.is2⟩ : NumS) = ⟨0, d.tm, d.fSec, d.is2⟩ from rfl, hx]
    rfl
  by_cases c0 : w.length = 3 ∧ m = DTK_YEAR_M ∧ 1 ≤ (value w : Int) ∧ (value w : Int) ≤ 366
  · simp only [numberAct, if_pos c0, Option.bind_some]
    refine fin (.yearDay _) ?_ rfl
    rw [decodeNumberVal, hm, if_pos c0]
    rfl
  · have en : decodeNumberVal w (value w) false d.fMask order ⟨0, d.tm, d.fSec, d.is2⟩ = (do
        let goOn ← numberByMask w (value w) false d.fMask order
        St.mod fun s => if goOn ∧ s.tMask = DTK_YEAR_M then { s with is2 := w.length ≤ 2 } else s : St NumS Unit)
          ⟨0, d.tm, d.fSec, d.is2⟩ := by
      rw [decodeNumberVal, hm, if_neg c0]
    simp only [numberAct, if_neg c0]
    by_cases c1 : m = 0
    · simp only [if_pos c1]
      by_cases c2 : w.length ≥ 3 ∨ order = .ymd
      · simp only [if_pos c2, Option.bind_some]
        refine fin (.year _ _) ?_ rfl
        rw [en]; unfold numberByMask; simp only [hm, if_pos c1, if_pos c2]; rfl
      · by_cases c3 : order = .dmy
        · simp only [if_neg c2, if_pos c3, Option.bind_some]
          refine fin (.day _) ?_ rfl
          rw [en]; unfold numberByMask; simp only [hm, if_pos c1, if_neg c2, if_pos c3]; rfl
        · simp only [if_neg c2, if_neg c3, Option.bind_some]
          refine fin (.month _) ?_ rfl
          rw [en]; unfold numberByMask; simp only [hm, if_pos c1, if_neg c2, if_neg c3]; rfl
    · simp only [if_neg c1]
      by_cases c2 : m = DTK_YEAR_M
      · simp only [if_pos c2, Option.bind_some]
        refine fin (.month _) ?_ rfl
        rw [en]; unfold numberByMask; simp only [hm, if_neg c1, if_pos c2]; rfl
      · simp only [if_neg c2]
        by_cases c3 : m = DTK_MONTH_M
        · simp only [if_pos c3, Option.bind_some]
          refine fin (.day _) ?_ rfl
          rw [en]; unfold numberByMask; simp only [hm, if_neg c1, if_neg c2, if_pos c3]; rfl
        · simp only [if_neg c3]
          by_cases c4 : m = DTK_YEAR_MONTH_M
          · simp only [if_pos c4, Option.bind_some]
            refine fin (.day _) ?_ rfl
            rw [en]; unfold numberByMask; simp only [hm, if_neg c1, if_neg c2, if_neg c3, if_pos c4]; rfl
          · simp only [if_neg c4]
            by_cases c5 : m = DTK_DAY_M
            · simp only [if_pos c5, Option.bind_some]
              refine fin (.month _) ?_ rfl
              rw [en]; unfold numberByMask; simp only [hm, if_neg c1, if_neg c2, if_neg c3, if_neg c4, if_pos c5]; rfl
            · simp only [if_neg c5]
              by_cases c6 : m = DTK_MONTH_DAY_M
              · simp only [if_pos c6, Option.bind_some]
                refine fin (.year _ _) ?_ rfl
                rw [en]; unfold numberByMask; simp only [hm, if_neg c1, if_neg c2, if_neg c3, if_neg c4, if_neg c5, if_pos c6]; rfl
              · simp only [if_neg c6]
                by_cases c7 : m = DTK_DATE_M
                · have ef : decodeNumberField w d.fMask = numberTime w w.length d.fMask := by
                    rw [decodeNumberField, if_neg (by rw [hdot]; simp), if_neg (by rw [hm]; exact fun h => h.1 c7)]
                  have en' : decodeNumberVal w (value w) false d.fMask order ⟨0, d.tm, d.fSec, d.is2⟩ = (do
                      let _ ← numberTime w w.length d.fMask
                      pure () : St NumS Unit) ⟨0, d.tm, d.fSec, d.is2⟩ := by
                    rw [en]; unfold numberByMask
                    simp only [hm, if_neg c1, if_neg c2, if_neg c3, if_neg c4, if_neg c5, if_neg c6, if_pos c7, ef]
                    simp only [bind, St.bind]
                    cases numberTime w w.length d.fMask ⟨0, d.tm, d.fSec, d.is2⟩ with
                    | mk r s => cases r <;> rfl
                  by_cases c8 : w.length = 4
                  · simp only [if_pos (show m = DTK_DATE_M ∧ w.length = 4 from ⟨c7, c8⟩), Option.bind_some]
                    have two : ∀ x : Bytes, Digits x → x ≠ [] → x.length ≤ 2 → str2i32 x = .ok ((value x : Int), []) := by
                      intro x hx nx lx
                      have h1 := value_lt hx
                      have h2 : 10 ^ x.length ≤ 10 ^ 2 := Nat.pow_le_pow_right (by omega) lx
                      rw [str2i32_all hx nx, if_pos ⟨by omega, by omega⟩]
                    have t1 := two (w.take 2) (fun b hb => hw b (List.mem_of_mem_take hb)) (by intro e; have := congrArg List.length e; rw [List.length_take, List.length_nil] at this; omega)
                      (by simp)
                    have t2 := two (w.drop 2) (fun b hb => hw b (List.mem_of_mem_drop hb)) (by intro e; have := congrArg List.length e; simp at this; omega)
                      (by simp; omega)
                    by_cases c9 : d.fMask &&& DTK_TIME_M = DTK_TIME_M
                    · rw [bad]
                      · unfold Upd.act
                        rw [if_pos (by simp only [Upd.mask]; rw [Nat.and_comm, c9]; decide)]
                        rfl
                      · rw [en']; unfold numberTime
                        rw [if_neg (by rintro ⟨h, -⟩; exact h c9), if_neg (by rintro ⟨h, -⟩; exact h c9)]
                        exact ⟨_, _, rfl⟩
                    · refine fin (.hhmm _ _) ?_ rfl
                      rw [en']; unfold numberTime
                      rw [if_neg (by omega), if_pos ⟨c9, c8⟩]
                      simp only [bind, St.bind, St.mod, St.lift, t1, t2]
                      rfl
                  · simp only [if_neg (show ¬ (m = DTK_DATE_M ∧ w.length = 4) from fun h => c8 h.2)]
                    refine bad ?_
                    rw [en']; unfold numberTime
                    rw [if_neg (by omega), if_neg (by omega)]
                    exact ⟨_, _, rfl⟩
                · simp only [if_neg (show ¬ (m = DTK_DATE_M ∧ w.length = 4) from fun h => c7 h.1)]
                  refine bad ?_
                  rw [en]; unfold numberByMask
                  simp only [hm, if_neg c1, if_neg c2, if_neg c3, if_neg c4, if_neg c5, if_neg c6, if_neg c7]
                  exact ⟨_, _, rfl⟩

/-! ## Lists of fields -/

/-- One after the other. -/
def runs : List Act → Dec → Option Dec
  | [], d => some d
  | a :: l, d => (a.run d).bind (runs l)

theorem runs_rest (l : List Act) (d : Dec) : runs l d.rest = (runs l d).map Dec.rest := by
  induction l generalizing d with
  | nil => rfl
  | cons a l ih =>
    simp only [runs, run_rest]
    cases a.run d with
    | none => rfl
    | some e => exact ih e

theorem loop_runs {p : Profile} {order : DateOrder} {ft : List TokenField} {fs : List Field} {l : List Act}
    (h : List.Forall₂ (Does p order) fs l) : ∀ (i : Nat) (d : Dec), d.pType = .number →
    okDec (dateTimeLoop p plainLook order ft fs i (d, ())) = (runs l d).map Dec.rest := by
  induction h with
  | nil => intro i d _; rfl
  | @cons f a fs l h hs ih =>
    intro i d hd
    have h1 := h ft i d hd
    simp only [dateTimeLoop, bind, St.bind, runs]
    cases hr : dateTimeField p plainLook order ft i f (d, ()) with
    | mk r s =>
      obtain ⟨d', _⟩ := s
      rw [hr] at h1
      cases ha : a.run d with
      | none =>
        rw [ha] at h1
        cases r with
        | ok _ => cases h1
        | err _ => rfl
        | panic => rfl
      | some e =>
        rw [ha] at h1
        cases r with
        | err _ => cases h1
        | panic => cases h1
        | ok _ =>
          simp only [okDec, Option.map_some, Option.some.injEq] at h1
          have hp : d'.pType = .number := by
            have : d'.rest.pType = e.rest.pType := by rw [h1]
            rw [show d'.pType = e.pType from this, run_pType ha, hd]
          simp only [Option.bind_some]
          rw [ih (i + 1) d' hp, ← runs_rest, ← runs_rest, h1]

theorem finish_rest {p : Profile} {a b : Dec} {u : Unit} (t : Nat) (h : finishFields p a = (.ok u, b)) :
    ∃ b', finishFields p { a with tMask := t } = (.ok u, b') ∧ b'.rest = b.rest := by
  revert h
  cases hv : a.tm.validateDate p a.fMask a.isJulian a.is2 a.bc with
  | err _ => simp only [finishFields, bind, St.bind, St.get, St.lift, hv]; intro e; cases e
  | panic => simp only [finishFields, bind, St.bind, St.get, St.lift, hv]; intro e; cases e
  | ok tm =>
    by_cases c1 : a.mer ≠ 2 ∧ tm.hour > 12
    · simp only [finishFields, bind, St.bind, St.get, St.lift, St.mod, hv, if_pos c1]; intro e; cases e
    · by_cases c2 : a.mer = 0 ∧ tm.hour = 12
      · simp only [finishFields, bind, St.bind, St.get, St.lift, St.mod, hv, if_neg c1, if_pos c2]
        intro e; cases e; exact ⟨_, rfl, rfl⟩
      · by_cases c3 : a.mer = 1 ∧ tm.hour ≠ 12
        · cases hc : chk32 p (tm.hour + 12) with
          | err _ => simp only [finishFields, bind, St.bind, St.get, St.lift, St.mod, hv, if_neg c1, if_neg c2, if_pos c3, hc]; intro e; cases e
          | panic => simp only [finishFields, bind, St.bind, St.get, St.lift, St.mod, hv, if_neg c1, if_neg c2, if_pos c3, hc]; intro e; cases e
          | ok x =>
            simp only [finishFields, bind, St.bind, St.get, St.lift, St.mod, hv, if_neg c1, if_neg c2, if_pos c3, hc]
            intro e; cases e; exact ⟨_, rfl, rfl⟩
        · simp only [finishFields, bind, St.bind, St.get, St.lift, St.mod, hv, if_neg c1, if_neg c2, if_neg c3]
          intro e; cases e; exact ⟨_, rfl, rfl⟩

/-- The fields after a success, and nothing else, decide the result. -/
theorem decode_rest {p : Profile} {order : DateOrder} {fs gs : List Field} {d d' : Dec}
    (h : okDec (dateTimeLoop p plainLook order (fs.map Prod.fst) fs 0 (d, ())) =
      okDec (dateTimeLoop p plainLook order (gs.map Prod.fst) gs 0 (d, ()))) :
    decodeDateTime p plainLook order fs (d, ()) = (.ok (), (d', ())) →
      ∃ d'', decodeDateTime p plainLook order gs (d, ()) = (.ok (), (d'', ())) ∧ d''.rest = d'.rest := by
  unfold decodeDateTime
  simp only [bind, St.bind]
  cases h1 : dateTimeLoop p plainLook order (fs.map Prod.fst) fs 0 (d, ()) with
  | mk r s =>
    cases h2 : dateTimeLoop p plainLook order (gs.map Prod.fst) gs 0 (d, ()) with
    | mk r' s' =>
      rw [h1, h2] at h
      cases r with
      | err _ => intro e; cases e
      | panic => intro e; cases e
      | ok _ =>
        cases r' with
        | err _ => cases h
        | panic => cases h
        | ok _ =>
          simp only [okDec, Option.some.injEq] at h
          obtain ⟨a, _⟩ := s
          obtain ⟨b, _⟩ := s'
          dsimp only at h ⊢
          obtain ⟨t, rfl⟩ : ∃ t, b = { a with tMask := t } := ⟨b.tMask, by
            cases a; cases b; simp only [Dec.rest, Dec.mk.injEq] at h ⊢; tauto⟩
          obtain ⟨r, f⟩ : ∃ r : Res Unit × Dec, finishFields p a = (r.1, r.2) := ⟨_, rfl⟩
          intro e
          simp only [noLook, f] at e ⊢
          cases hr : r.1 with
          | err _ => rw [hr] at e; cases e
          | panic => rw [hr] at e; cases e
          | ok u =>
            obtain ⟨b', hb, hr'⟩ := finish_rest t (f.trans (by rw [hr]))
            simp only [hr, hb, St.get] at e ⊢
            have k : b'.dType = r.2.dType ∧ b'.fMask = r.2.fMask :=
              ⟨by have := congrArg Dec.dType hr'; exact this, by have := congrArg Dec.fMask hr'; exact this⟩
            rw [k.1, k.2]
            by_cases hc : r.2.dType = .date ∧ r.2.fMask &&& DTK_DATE_M ≠ DTK_DATE_M ∧ r.2.fMask &&& DTK_TIME_M ≠ DTK_TIME_M
            · rw [if_pos hc] at e; cases e
            · rw [if_neg hc] at e ⊢
              cases e
              exact ⟨b', rfl, hr'⟩

/-! ## The scanner -/

/-- The word is the field, whatever follows. -/
def OneField (u : TokenField) (w : Bytes) (f : Field) : Prop :=
  f.2.length = w.length ∧ ∀ c, Over c → ∃ b r, w = b :: r ∧ startB b = true ∧ scanField u b (w ++ c) = .ok (f, c)

theorem scanLoop_fields {u : TokenField} {g : Bytes → Field} : ∀ (ws : List Bytes) (s : Bytes) (fuel cap nf : Nat), words s = ws →
    (∀ w ∈ ws, OneField u w (g w)) → s.length < fuel → ∀ l, scanLoop u fuel s cap nf = .ok l ↔
      l = ws.map g ∧ (ws.map List.length).sum ≤ cap ∧ nf + ws.length ≤ 25 ∨ (l = [] ∧ ws = []) := by
  intro ws
  induction ws with
  | nil =>
    intro s fuel cap nf hs _ hf l
    have hsp := words_nil hs
    cases fuel with
    | zero => omega
    | succ n =>
      rw [scanLoop, dropWhile_all hsp]
      simp only [Res.ok.injEq, List.map_nil, and_true]
      constructor
      · rintro rfl; exact Or.inr rfl
      · rintro (h | rfl)
        · exact h.1.symm
        · rfl
  | cons x ws ih =>
    intro s fuel cap nf hs hg hf l
    obtain ⟨a, c, rfl, ha, nx, -, hc, hw⟩ := first_word hs
    obtain ⟨hlen, hsc⟩ := hg x (by simp)
    obtain ⟨b, r, e, hb, hscan⟩ := hsc c hc
    rw [scanLoop_space u fuel ha]
    have hfx : (x ++ c).length < fuel := by simp only [List.length_append] at hf ⊢; omega
    cases fuel with
    | zero => omega
    | succ n =>
      have hbs : isSpace b = false := startB_noSpace hb
      rw [scanLoop]
      rw [e] at hscan hlen hfx
      rw [e]
      simp only [List.cons_append, List.length_cons, List.length_append] at hscan hfx
      simp only [List.cons_append, List.dropWhile_cons_of_neg (show ¬ isSpace b = true by rw [hbs]; decide)]
      rw [if_pos (show (isDigit b || b = 46 || isAlpha b || b = 43 || b = 45) = true from hb), hscan]
      simp only [reduceCtorEq, and_false, or_false, List.map_cons, List.sum_cons, List.length_cons]
      rw [← e] at hlen ⊢
      have hlx : x.length = r.length + 1 := by rw [e]; rfl
      by_cases h1 : nf ≥ 25
      · rw [if_pos h1]
        constructor
        · intro h; cases h
        · rintro ⟨-, -, h⟩; omega
      · rw [if_neg h1]
        by_cases h2 : cap = 0
        · rw [if_pos h2]
          constructor
          · intro h; cases h
          · rintro ⟨-, h, -⟩; omega
        · rw [if_neg h2, Res.bind_ok]
          simp only
          by_cases h3 : (g x).2.length > cap
          · rw [if_pos h3]
            constructor
            · intro h; cases h
            · rintro ⟨-, h, -⟩; omega
          · rw [if_neg h3, Res.bind_eq_ok]
            have k := ih c n (cap - (g x).2.length) (nf + 1) hw (fun w hw => hg w (by simp [hw])) (by omega)
            constructor
            · rintro ⟨l', h4, h5⟩
              cases h5
              rcases (k l').1 h4 with ⟨h6, h7, h8⟩ | ⟨h6, h7⟩
              · exact ⟨by rw [h6], by omega, by omega⟩
              · subst h6; subst h7
                simp only [List.map_nil, List.sum_nil, List.length_nil]
                exact ⟨trivial, by omega, by omega⟩
            · rintro ⟨rfl, h5, h6⟩
              exact ⟨_, (k _).2 (Or.inl ⟨rfl, by omega, by omega⟩), rfl⟩

/-- A plain word as a field. -/
def fieldOf (x : Bytes) : Field :=
  if x.any isAlpha then (.string, lower x) else if x.contains 58 then (.time, x) else (.number, x)

theorem letters_oneField {u : TokenField} {w : Bytes} (hw : Letters w) (nw : w ≠ []) : fieldOf w = (.string, lower w) ∧ OneField u w (fieldOf w) := by
  have e : fieldOf w = (.string, lower w) := by
    rw [fieldOf, if_pos]
    obtain ⟨b, r, rfl⟩ := List.exists_cons_of_ne_nil nw
    simp [hw b (by simp)]
  rw [e]
  exact ⟨rfl, by simp [lower], fun c hc => word_scan hw nw hc⟩

theorem clock_oneField {u : TokenField} {w : Bytes} (hw : Mark.clock.Is w) : fieldOf w = (.time, w) ∧ OneField u w (fieldOf w) := by
  have e : fieldOf w = (.time, w) := by
    obtain ⟨a, r, rfl, na, ha, hr⟩ := hw
    rw [fieldOf, if_neg, if_pos (by simp)]
    simp only [List.any_append, List.any_cons, Bool.or_eq_true, List.any_eq_true, isAlpha_iff]
    rintro (⟨b, hb, h⟩ | h | ⟨b, hb, h⟩)
    · have := ha b hb; omega
    · omega
    · have := hr b hb; unfold Digit at this; omega
  rw [e]
  exact ⟨rfl, rfl, fun c hc => clock_scan hw (over_stops hc space_timeB)⟩

theorem digits_oneField {u : TokenField} {w : Bytes} (hw : Digits w) (nw : w ≠ []) : fieldOf w = (.number, w) ∧ OneField u w (fieldOf w) := by
  have e : fieldOf w = (.number, w) := by
    rw [fieldOf, if_neg, if_neg]
    · simp only [List.contains_iff_mem]
      intro h; have := hw 58 h; omega
    · simp only [List.any_eq_true, isAlpha_iff]
      rintro ⟨b, hb, h⟩
      have := hw b hb; omega
  rw [e]
  refine ⟨rfl, rfl, fun c hc => digit_word hw nw ?_⟩
  have hst : Stops isDigit c := over_stops hc space_digit
  rw [scanDigit, takeWhile_span (digits_isDigit hw) hst, dropWhile_span (digits_isDigit hw) hst]
  rcases hc with rfl | ⟨a, r, rfl, ha⟩
  · rfl
  · simp only
    rcases space_cases ha with rfl | rfl | rfl | rfl | rfl <;> rfl

theorem noise_list : ∀ x ∈ [(b!"at", (0 : Int)), (b!"on", 0)], (tokenResult (lookupIn dateTable x.1)).1 = .ignoreDtf ∧
    x.1.map smallLetter = x.1 ∧ (∀ b ∈ x.1, isAlpha b = true) ∧ x.1 ≠ [] := by decide +kernel

theorem floating_does (p : Profile) (order : DateOrder) {w : Bytes} (h : Floating w) :
    (∀ u, OneField u w (fieldOf w)) ∧ ∃ a : Act, a.Loose ∧ Does p order (fieldOf w) a := by
  have word : ∀ {x : Upd}, x.Loose → Letters w ∧ w ≠ [] → Does p order (.string, lower w) ⟨fun _ _ _ => some x⟩ →
      (∀ u, OneField u w (fieldOf w)) ∧ ∃ a : Act, a.Loose ∧ Does p order (fieldOf w) a := by
    intro x hx hw hd
    refine ⟨fun u => (letters_oneField hw.1 hw.2).2, ⟨fun _ _ _ => some x⟩, ⟨some x, fun y hy => by cases hy; exact hx, fun _ _ _ => rfl⟩, ?_⟩
    rw [(letters_oneField (u := .number) hw.1 hw.2).1]
    exact hd
  rcases h with h | h | h | h | h | h
  · refine ⟨fun u => (clock_oneField h).2, ?_⟩
    obtain ⟨o, h1, h2⟩ := clock_does p order w
    refine ⟨⟨fun _ _ _ => o⟩, ⟨o, h1, fun _ _ _ => rfl⟩, ?_⟩
    rw [(clock_oneField (u := .number) h).1]
    exact h2
  · obtain ⟨s, n, hs, hw⟩ := h
    obtain ⟨h1, h2, v, h3⟩ := listed_word weekday_list hs hw
    exact word (x := .weekday v) trivial ⟨h1, h2⟩ (weekday_does h3)
  · obtain ⟨pm, hw⟩ := h
    obtain ⟨h1, h2, v, h3⟩ := listed_word (w := w) (s := if pm then b!"pm" else b!"am") (n := if pm then 1 else 0) meridiem_list
      (by cases pm <;> decide) (by cases pm <;> exact hw)
    exact word (x := .half v) trivial ⟨h1, h2⟩ (half_does h3)
  · have : Letters w ∧ w ≠ [] ∧ ∃ v, tokenResult (lookupIn dateTable (lower w)) = (.adbc, v) := by
      rcases h with h | h
      · exact listed_word (n := 0) era_list (by decide) h
      · exact listed_word (n := 1) era_list (by decide) h
    obtain ⟨h1, h2, v, h3⟩ := this
    exact word (x := .era (v = 1)) trivial ⟨h1, h2⟩ (era_does h3)
  all_goals
    obtain ⟨h1, h2, v, h3⟩ := listed_word (n := 0) noise_list (by decide) h
    exact word (x := .none) trivial ⟨h1, h2⟩ (noise_does h3)

theorem anchored_does (p : Profile) (order : DateOrder) {w : Bytes} (h : Anchored w) :
    (∀ u, OneField u w (fieldOf w)) ∧ ∃ a : Act, Does p order (fieldOf w) a := by
  rcases h with ⟨m, s, hs, hw⟩ | ⟨nw, hw, hl⟩
  · obtain ⟨h1, h2, v, h3⟩ := listed_word month_list hs hw
    refine ⟨fun u => (letters_oneField h1 h2).2, ?_⟩
    rw [(letters_oneField (u := .number) h1 h2).1]
    exact ⟨_, month_does h3⟩
  · refine ⟨fun u => (digits_oneField hw nw).2, ?_⟩
    rw [(digits_oneField (u := .number) hw nw).1]
    exact ⟨_, number_does p order hw nw hl⟩

/-! ## Moving words -/

theorem Moved.perm {l l' : List Bytes} (h : Moved l l') : l.Perm l' := by
  induction h with
  | refl l => exact .refl l
  | swap a b l _ => exact .swap b a l
  | cons a _ ih => exact .cons a ih
  | symm _ ih => exact ih.symm
  | trans _ _ ih ih' => exact ih.trans ih'

theorem moved_runs {G : Bytes → Act} (hG : ∀ w, Floating w → (G w).Loose) {l l' : List Bytes} (h : Moved l l') (d : Dec) :
    runs (l.map G) d = runs (l'.map G) d := by
  induction h generalizing d with
  | refl l => rfl
  | swap a b l ha =>
    simp only [List.map_cons, runs]
    rw [← Option.bind_assoc (f := (G b).run), ← Option.bind_assoc (f := (G a).run), run_comm (hG a ha)]
  | cons a _ ih =>
    simp only [List.map_cons, runs]
    cases (G a).run d with
    | none => rfl
    | some e => exact ih e
  | symm _ ih => exact (ih d).symm
  | trans _ _ ih ih' => exact (ih d).trans (ih' d)

end Pg
