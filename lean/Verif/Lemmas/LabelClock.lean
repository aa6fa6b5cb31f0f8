import Verif.Spec.LabelClock
import Verif.Lemmas.LabelScan

/-! # Clock times with labels -/

namespace Pg
open Spec

/-- A number and its fraction. -/
def partNumber (P : ClockPart) : Bytes := P.digits ++ dotText P.frac

def clockPartFields (P : ClockPart) : List Field := [(.string, lower P.word), (.number, partNumber P)]

def labelClockFields (parts : List ClockPart) : List Field := (parts.map clockPartFields).flatten

/-- The microseconds of a part. -/
def partUs (P : ClockPart) : Int := fracMicros P.frac

/-- The mask of a part. -/
def partBit (P : ClockPart) : Nat :=
  match P.label with
  | .hour => 1024
  | .minute => 2048
  | .second => if P.frac.isSome then 28672 else 4096

/-- All mask bits that belong to a label. -/
def labelBits : ClockLabel → Nat
  | .hour => 1024
  | .minute => 2048
  | .second => 28672

def partTm (tm : PgTime) (P : ClockPart) : PgTime :=
  match P.label with
  | .hour => { tm with hour := value P.digits }
  | .minute => { tm with min := value P.digits }
  | .second => { tm with sec := value P.digits }

/-- The state after a part. -/
def addPart (d : Dec) (P : ClockPart) : Dec :=
  { d with tm := partTm d.tm P, fSec := if P.frac.isSome then partUs P else d.fSec, tMask := partBit P,
           fMask := d.fMask ||| partBit P, pType := .number, dType := .date }

theorem partBit_sub (P : ClockPart) : labelBits P.label &&& partBit P = partBit P := by
  unfold partBit
  cases P.label <;> simp [labelBits]
  split <;> decide

theorem partBit_other (P : ClockPart) {l : ClockLabel} (h : l ≠ P.label) : partBit P &&& labelBits l = 0 := by
  unfold partBit
  cases hl : P.label <;> cases l <;> simp_all [labelBits]
  all_goals (split <;> decide)

/-- The unit of a part's word. -/
def partField (P : ClockPart) : TokenField :=
  match P.label with
  | .hour => .hour
  | .minute => .minute
  | .second => .second

theorem part_word {m : Bool} {P : ClockPart} (hP : P.Ok m) :
    ∃ s f, (s, f) ∈ unitTable ∧ SameButCase P.word s ∧
      (f = partField P ∨ m = true ∧ P.label = .minute ∧ f = .month) := by
  rcases hP.1 with h | ⟨h1, h2, h3⟩
  · refine ⟨_, partField P, ?_, h, Or.inl rfl⟩
    unfold partField
    cases P.label <;> simp [unitTable, ClockLabel.word]
  · exact ⟨_, .month, by simp [unitTable], h3, Or.inr ⟨h1, h2, rfl⟩⟩

section
variable {p : Profile} {order : DateOrder} {ft : List TokenField} {i : Nat} {d : Dec}

/-- Assigning the number of a part. -/
theorem part_assign {m : Bool} {P : ClockPart} (hP : P.Ok m) {f : TokenField} {str : Bytes}
    (hf : f = partField P ∨ m = true ∧ P.label = .minute ∧ f = .month)
    (hm : m = true → d.fMask &&& 2 ≠ 0 ∧ d.fMask &&& 1024 ≠ 0) :
    labelAssign p f str (value P.digits) (dotText P.frac) d =
      (.ok (), { d with tm := partTm d.tm P, fSec := if P.frac.isSome then partUs P else d.fSec, tMask := partBit P }) := by
  obtain ⟨-, -, -, h4⟩ := hP
  rcases hf with rfl | ⟨h1, h2, rfl⟩
  · cases hl : P.label with
    | hour =>
      have hn : P.frac = none := by
        cases hfr : P.frac with
        | none => rfl
        | some fs => have := (h4 _ hfr).1; rw [hl] at this; cases this
      simp only [partField, hl, labelAssign, partTm, partBit, hn, Option.isSome_none, Bool.false_eq_true, if_false]
      rfl
    | minute =>
      have hn : P.frac = none := by
        cases hfr : P.frac with
        | none => rfl
        | some fs => have := (h4 _ hfr).1; rw [hl] at this; cases this
      simp only [partField, hl, labelAssign, partTm, partBit, hn, Option.isSome_none, Bool.false_eq_true, if_false]
      rfl
    | second =>
      simp only [partField, hl, labelAssign, partTm, partBit]
      rw [St.mod_bind, St.ite_run]
      cases hfr : P.frac with
      | none =>
        rw [if_neg (by simp [dotText])]
        simp only [Option.isSome_none, Bool.false_eq_true, if_false]
        rfl
      | some fs =>
        have hd := (h4 _ hfr).2
        rw [if_pos (by simp [dotText])]
        simp only [dotText, Option.isSome_some, if_true]
        rw [parseFractionalSecond_eq hd.1, if_pos hd.2.2, St.lift_ok_bind]
        simp only [St.mod_run, partUs, fracMicros, hfr, fracDigits]
  · have hn : P.frac = none := by
      cases hfr : P.frac with
      | none => rfl
      | some fs => have := (h4 _ hfr).1; rw [h2] at this; cases this
    have hc := hm h1
    simp only [labelAssign, partTm, partBit, h2, hn, Option.isSome_none, Bool.false_eq_true, if_false, St.mod_run]
    rw [if_pos hc]

/-- The number of a part after its label. -/
theorem labelled_part {m : Bool} {P : ClockPart} (hP : P.Ok m) {f : TokenField}
    (hf : f = partField P ∨ m = true ∧ P.label = .minute ∧ f = .month) (hp : d.pType = f)
    (hm : m = true → d.fMask &&& 2 ≠ 0 ∧ d.fMask &&& 1024 ≠ 0) :
    if NumOk P.digits then
      labelled p (partNumber P) d =
        (.ok (), { d with tm := partTm d.tm P, fSec := if P.frac.isSome then partUs P else d.fSec, tMask := partBit P,
                          pType := .number, dType := .date })
    else ∃ s, labelled p (partNumber P) d = (.err .overflow, s) := by
  have nd := DigitsOf.ne hP.2.2.1 (by omega)
  have hs := str2i32_digits (r := dotText P.frac) hP.2.2.1.1 nd (stops_dot _)
  have ha := part_assign (p := p) (str := partNumber P) hP hf hm
  have h4 := hP.2.2.2
  by_cases hk : NumOk P.digits
  · rw [if_pos hk]
    rw [if_pos (show P.digits.length ≤ 10 ∧ value P.digits ≤ 2147483647 from hk)] at hs
    unfold labelled
    rw [St.get_bind, partNumber, hs, St.lift_ok_bind]
    simp only
    rw [St.ite_run, if_neg, St.ite_run, if_neg (by cases P.frac <;> simp [dotText]), hp]
    · rw [partNumber] at ha
      rw [St.bind_ok ha]
      rfl
    · rintro ⟨h1, -, -, h3⟩
      cases hfr : P.frac with
      | none => rw [hfr] at h1; simp [dotText] at h1
      | some fs =>
        have hl := (h4 _ hfr).1
        rcases hf with rfl | ⟨-, h2, -⟩
        · apply h3; rw [hp]; simp [partField, hl]
        · rw [h2] at hl; cases hl
  · rw [if_neg hk]
    rw [if_neg (show ¬ (P.digits.length ≤ 10 ∧ value P.digits ≤ 2147483647) from hk)] at hs
    unfold labelled
    rw [St.get_bind, partNumber, hs]
    exact ⟨_, St.bind_err (St.lift_run _ _)⟩

theorem part_ne_number {m : Bool} {P : ClockPart} {f : TokenField}
    (hf : f = partField P ∨ m = true ∧ P.label = .minute ∧ f = .month) : f ≠ .number := by
  rcases hf with rfl | ⟨-, -, rfl⟩
  · unfold partField; cases P.label <;> simp
  · simp

theorem part_mask {P : ClockPart} (h : d.fMask &&& labelBits P.label = 0) : partBit P &&& d.fMask = 0 := by
  rw [Nat.and_comm, ← partBit_sub P, ← Nat.and_assoc, h, Nat.zero_and]

/-- A labelled number in a timestamp. -/
theorem loop_part {m : Bool} {P : ClockPart} (hP : P.Ok m) (hb : d.fMask &&& labelBits P.label = 0)
    (hm : m = true → d.fMask &&& 2 ≠ 0 ∧ d.fMask &&& 1024 ≠ 0) (rest : List Field) :
    if NumOk P.digits then
      dateTimeLoop p plainLook order ft (clockPartFields P ++ rest) i (d, ()) =
        dateTimeLoop p plainLook order ft rest (i + 2) (addPart d P, ())
    else ∃ e s, dateTimeLoop p plainLook order ft (clockPartFields P ++ rest) i (d, ()) = (.err e, s) := by
  obtain ⟨s, f, hu, hw, hf⟩ := part_word hP
  obtain ⟨⟨e, h1, h2, h3⟩, -⟩ := labelUnit_entry hu hw
  have hs := field_units (p := p) (order := order) (ft := ft) (i := i) (d := d) h1 h2 h3
  have step : dateTimeLoop p plainLook order ft (clockPartFields P ++ rest) i (d, ()) =
      dateTimeLoop p plainLook order ft ((.number, partNumber P) :: rest) (i + 1)
        ({ d with tMask := 0, pType := f }, ()) := loop_cons hs
  have hl := labelled_part (p := p) (d := { d with tMask := 0, pType := f }) hP hf rfl hm
  rw [step]
  by_cases hk : NumOk P.digits
  · rw [if_pos hk] at hl ⊢
    exact loop_cons (numberToken_label (order := order) (ft := ft) (i := i + 1) (part_ne_number hf) hl (part_mask hb))
  · rw [if_neg hk] at hl ⊢
    obtain ⟨s, hl⟩ := hl
    obtain ⟨e, s, hl⟩ := numberToken_labelErr (order := order) (ft := ft) (i := i + 1) (part_ne_number hf) hl
    exact ⟨_, _, loop_cons_err hl⟩

/-- The masks before the parts `parts`. -/
def MaskFor (day hour : Bool) (parts : List ClockPart) (m : Nat) : Prop :=
  (∀ P ∈ parts, m &&& labelBits P.label = 0) ∧ ((day && hour) = true → m &&& 2 ≠ 0 ∧ m &&& 1024 ≠ 0)

theorem or_ne_zero {a b k : Nat} (h : a &&& k ≠ 0) : (a ||| b) &&& k ≠ 0 := by
  rw [Nat.and_or_distrib_right]
  intro hc
  exact h (by
    have := Nat.or_eq_zero_iff.1 hc
    exact this.1)

theorem mask_next {day hour : Bool} {P : ClockPart} {r : List ClockPart} {m : Nat}
    (hd : day = true → m &&& 2 ≠ 0)
    (h : MaskFor day hour (P :: r) m) (hr : ∀ Q ∈ r, Beside Q.lead ∧ Q.label ≠ P.label) :
    MaskFor day (hour || decide (P.label = .hour)) r (m ||| partBit P) := by
  obtain ⟨h1, h2⟩ := h
  refine ⟨fun Q hQ => ?_, fun hh => ?_⟩
  · rw [Nat.and_or_distrib_right, h1 Q (List.mem_cons_of_mem _ hQ), partBit_other P (hr Q hQ).2, Nat.or_zero]
  · simp only [Bool.and_eq_true, Bool.or_eq_true, decide_eq_true_eq] at hh
    refine ⟨or_ne_zero (hd hh.1), ?_⟩
    rcases hh.2 with h | h
    · exact or_ne_zero (h2 (by simp [hh.1, h])).2
    · have : partBit P = 1024 := by simp [partBit, h]
      rw [this, Nat.and_or_distrib_right]
      intro hc
      have := (Nat.or_eq_zero_iff.1 hc).2
      simp at this

/-- A clock time with labels in a timestamp. -/
theorem loop_parts {parts : List ClockPart} : ∀ {hour : Bool} {d : Dec} {i : Nat}, PartsOk true hour parts →
    MaskFor true hour parts d.fMask → d.fMask &&& 2 ≠ 0 → ∀ rest : List Field,
    if ∀ P ∈ parts, NumOk P.digits then
      dateTimeLoop p plainLook order ft (labelClockFields parts ++ rest) i (d, ()) =
        dateTimeLoop p plainLook order ft rest (i + (labelClockFields parts).length) (parts.foldl addPart d, ())
    else ∃ e s, dateTimeLoop p plainLook order ft (labelClockFields parts ++ rest) i (d, ()) = (.err e, s) := by
  induction parts with
  | nil =>
    intro hour d i _ _ _ rest
    rw [if_pos (by simp)]
    rfl
  | cons P r ih =>
    intro hour d i hok hmask h2 rest
    obtain ⟨hP, hr, hok'⟩ := hok
    have e : labelClockFields (P :: r) ++ rest = clockPartFields P ++ (labelClockFields r ++ rest) := by
      simp [labelClockFields]
    have e2 : (labelClockFields (P :: r)).length = 2 + (labelClockFields r).length := by
      simp [labelClockFields, clockPartFields]; omega
    rw [e, e2]
    have t1 := loop_part (p := p) (order := order) (ft := ft) (i := i) hP (hmask.1 P (by simp)) hmask.2 (labelClockFields r ++ rest)
    by_cases hk : NumOk P.digits
    · rw [if_pos hk] at t1
      rw [t1]
      have t2 := ih (d := addPart d P) (i := i + 2) hok' (mask_next (fun _ => h2) hmask hr : MaskFor _ _ _ (addPart d P).fMask)
        (or_ne_zero h2) rest
      by_cases hk2 : ∀ Q ∈ r, NumOk Q.digits
      · rw [if_pos hk2] at t2
        rw [if_pos (by simpa using ⟨hk, hk2⟩), t2, Nat.add_assoc]
        rfl
      · rw [if_neg hk2] at t2
        rw [if_neg (fun q => hk2 (fun Q hQ => q Q (List.mem_cons_of_mem _ hQ)))]
        exact t2
    · rw [if_neg hk] at t1
      rw [if_neg (fun q => hk (q P (by simp)))]
      exact t1

end

/-- The parts of the state that stay, and the clock. -/
theorem parts_state {parts : List ClockPart} : ∀ {day hour : Bool} {d : Dec}, PartsOk day hour parts →
    let X := parts.foldl addPart d
    X.tm.year = d.tm.year ∧ X.tm.mon = d.tm.mon ∧ X.tm.mday = d.tm.mday ∧ X.tm.yday = d.tm.yday ∧
    X.is2 = d.is2 ∧ X.isJulian = d.isJulian ∧ X.bc = d.bc ∧ X.mer = d.mer ∧
    (∀ k, 31744 &&& k = 0 → X.fMask &&& k = d.fMask &&& k) ∧
    (d.dType = .date → X.dType = .date) ∧
    X.tm.hour = (match parts.find? (fun P => P.label = .hour) with | some P => (value P.digits : Int) | none => d.tm.hour) ∧
    X.tm.min = (match parts.find? (fun P => P.label = .minute) with | some P => (value P.digits : Int) | none => d.tm.min) ∧
    X.tm.sec = (match parts.find? (fun P => P.label = .second) with | some P => (value P.digits : Int) | none => d.tm.sec) ∧
    X.fSec = (match parts.find? (fun P => P.label = .second) with
      | some P => if P.frac.isSome then partUs P else d.fSec | none => d.fSec) := by
  induction parts with
  | nil => intro day hour d _; simp
  | cons P r ih =>
    intro day hour d hok
    obtain ⟨hP, hr, hok'⟩ := hok
    have h := ih (d := addPart d P) hok'
    simp only at h
    obtain ⟨a1, a2, a3, a4, a5, a6, a7, a8, a9, a10, a11, a12, a13, a14⟩ := h
    have nf : ∀ l, P.label = l → r.find? (fun Q => decide (Q.label = l)) = none := by
      intro l hl
      rw [List.find?_eq_none]
      intro Q hQ
      simpa [← hl] using (hr Q hQ).2
    have hfr : P.label ≠ .second → P.frac = none := by
      intro hl
      cases hf : P.frac with
      | none => rfl
      | some fs => exact absurd (hP.2.2.2 _ hf).1 hl
    simp only [List.foldl_cons]
    have hk : ∀ k, 31744 &&& k = 0 → partBit P &&& k = 0 := by
      intro k hk
      have : partBit P &&& 31744 = partBit P := by
        unfold partBit
        cases P.label <;> simp
        split <;> decide
      rw [← this, Nat.and_assoc, hk, Nat.and_zero]
    have hmask : ∀ k, 31744 &&& k = 0 → (List.foldl addPart (addPart d P) r).fMask &&& k = d.fMask &&& k := by
      intro k h0
      rw [a9 k h0]
      show (d.fMask ||| partBit P) &&& k = _
      rw [Nat.and_or_distrib_right, hk k h0, Nat.or_zero]
    have hdt : (List.foldl addPart (addPart d P) r).dType = .date := a10 rfl
    cases hl : P.label with
    | hour =>
      have e : addPart d P = { d with tm := { d.tm with hour := value P.digits }, tMask := partBit P, fMask := d.fMask ||| partBit P, pType := .number, dType := .date } := by
        simp [addPart, partTm, hl, hfr (by simp [hl])]
      rw [nf _ hl] at a11
      refine ⟨?_, ?_, ?_, ?_, ?_, ?_, ?_, ?_, hmask, fun _ => hdt, ?_, ?_, ?_, ?_⟩
      · rw [a1, e]
      · rw [a2, e]
      · rw [a3, e]
      · rw [a4, e]
      · rw [a5, e]
      · rw [a6, e]
      · rw [a7, e]
      · rw [a8, e]
      · rw [a11, e]; simp [hl]
      · rw [a12, e]; simp [hl]
      · rw [a13, e]; simp [hl]
      · rw [a14, e]; simp [hl]
    | minute =>
      have e : addPart d P = { d with tm := { d.tm with min := value P.digits }, tMask := partBit P, fMask := d.fMask ||| partBit P, pType := .number, dType := .date } := by
        simp [addPart, partTm, hl, hfr (by simp [hl])]
      rw [nf _ hl] at a12
      refine ⟨?_, ?_, ?_, ?_, ?_, ?_, ?_, ?_, hmask, fun _ => hdt, ?_, ?_, ?_, ?_⟩
      · rw [a1, e]
      · rw [a2, e]
      · rw [a3, e]
      · rw [a4, e]
      · rw [a5, e]
      · rw [a6, e]
      · rw [a7, e]
      · rw [a8, e]
      · rw [a11, e]; simp [hl]
      · rw [a12, e]; simp [hl]
      · rw [a13, e]; simp [hl]
      · rw [a14, e]; simp [hl]
    | second =>
      have e : addPart d P = { d with tm := { d.tm with sec := value P.digits }, fSec := if P.frac.isSome then partUs P else d.fSec, tMask := partBit P, fMask := d.fMask ||| partBit P, pType := .number, dType := .date } := by
        simp [addPart, partTm, hl]
      rw [nf _ hl] at a13 a14
      refine ⟨?_, ?_, ?_, ?_, ?_, ?_, ?_, ?_, hmask, fun _ => hdt, ?_, ?_, ?_, ?_⟩
      · rw [a1, e]
      · rw [a2, e]
      · rw [a3, e]
      · rw [a4, e]
      · rw [a5, e]
      · rw [a6, e]
      · rw [a7, e]
      · rw [a8, e]
      · rw [a11, e]; simp [hl]
      · rw [a12, e]; simp [hl]
      · rw [a13, e]; simp [hl]
      · rw [a14, e]; simp [hl]

end Pg
