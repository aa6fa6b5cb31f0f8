import Verif.Lemmas.AnyDay
import Verif.Lemmas.StampBack
import Verif.Lemmas.QuantitiesText
import Verif.Spec.MonthNames

/-! # Days with a month name -/

namespace Pg
open Spec

theorem month_entry : ∀ x ∈ monthWords ++ shortMonthWords,
    (∃ e, lookupIn dateTable x.1 = some e ∧ e.ty = .month ∧ e.value = x.2) ∧ x.1.map smallLetter = x.1 ∧
      (∀ b ∈ x.1, isAlpha b = true) ∧ x.1 ≠ [] ∧ x.1.length ≤ 9 := by
  have h : ∀ x ∈ monthWords ++ shortMonthWords,
    (lookupIn dateTable x.1).any (fun e => e.ty = .month && e.value = x.2) = true ∧ x.1.map smallLetter = x.1 ∧
      (∀ b ∈ x.1, isAlpha b = true) ∧ x.1 ≠ [] ∧ x.1.length ≤ 9 := by decide +kernel
  intro x hx
  obtain ⟨h1, h2⟩ := h x hx
  refine ⟨?_, h2⟩
  cases hl : lookupIn dateTable x.1 with
  | none => rw [hl] at h1; simp at h1
  | some e => rw [hl] at h1; exact ⟨e, rfl, by simpa using h1⟩

theorem lower_word {w s : Bytes} (h : SameButCase w s) (h1 : s.map smallLetter = s) : lower w = s := by
  unfold SameButCase at h
  unfold lower
  rw [show lowerB = smallLetter from funext lowerB_letter, h, h1]

theorem monthWord_entry {m : Int} {w : Bytes} (h : MonthWord m w) :
    (∃ e, searchDate (lower w) = .ok (some e) ∧ e.ty = .month ∧ e.value = m) ∧ Letters w ∧ w ≠ [] ∧
      Letters (lower w) ∧ lower w ≠ [] ∧ w.length ≤ 9 := by
  obtain ⟨s, hs, hw⟩ := h
  obtain ⟨⟨e, h1, h2, h3⟩, h4, h5, h6, h7⟩ := month_entry _ hs
  have e1 : lower w = s := lower_word hw h4
  obtain ⟨k1, k2⟩ := small_alpha hw h4 h5 h6
  refine ⟨⟨e, ?_, h2, h3⟩, k1, k2, ?_, ?_, ?_⟩
  · rw [searchDate_eq, e1, h1]
  · rw [e1]; exact h5
  · rw [e1]; exact h6
  · have : w.length = s.length := by rw [← e1]; simp [lower]
    simp only at h7
    omega

theorem namedDay_badDay {ys : Bytes} {m d : Int} {bc : Bool} (h : d < 1 ∨ 31 < d) : namedDay ys m d bc = none := by
  unfold namedDay
  split
  · rfl
  · rw [if_neg]
    intro hr
    have := real_bounds hr
    simp only at this
    omega

/-! ## Separate words -/

/-- The state before a day. -/
structure DayStart (d : Dec) : Prop where
  mask : d.fMask &&& 327182 = 0
  pType : d.pType = .number
  is2 : d.is2 = false
  bc : d.bc = false
  julian : d.isJulian = false
  mer : d.mer = 2
  dType : d.dType = .date
  text : d.textMonth = false
  hour : d.tm.hour = 0
  min : d.tm.min = 0
  sec : d.tm.sec = 0
  fSec : d.fSec = 0

theorem dayStart_new : DayStart {} := by constructor <;> rfl

section
variable {p : Profile} {order : DateOrder} {ft : List TokenField} {i : Nat} {d : Dec}

theorem addMask_err (h : d.tMask &&& d.fMask ≠ 0) : addMask d = (.err .invalid, d) := by
  unfold addMask
  rw [St.get_bind, St.ite_run, if_pos h]
  rfl

/-- A plain number of up to five digits. -/
theorem field_plain {f : Bytes} {n : NumS} (hf : Digits f) (nf : f ≠ []) (hl : f.length ≤ 5) (hp : d.pType = .number)
    (hv : decodeNumberVal f (value f) false d.fMask order ⟨0, d.tm, d.fSec, d.is2⟩ = (.ok (), n))
    (hm : n.tMask &&& d.fMask = 0) :
    dateTimeField p plainLook order ft i (.number, f) (d, ()) =
      (.ok (), ({ d with tMask := n.tMask, tm := n.tm, fSec := n.fsec, is2 := n.is2,
                         fMask := d.fMask ||| n.tMask }, ())) := by
  have hk : NumOk f := by
    have hv := value_lt hf
    have : 10 ^ f.length ≤ 10 ^ 5 := Nat.pow_le_pow_right (by omega) hl
    exact ⟨by omega, by omega⟩
  have hn : numberToken p plainLook f order (d, ()) =
      (.ok (), ({ d with tMask := n.tMask, tm := n.tm, fSec := n.fsec, is2 := n.is2 }, ())) := by
    unfold numberToken
    rw [St.bind_ok (noLook_run (St.get_run _)), St.ite_run, if_neg (by rw [hp]; decide), St.ite_run,
      if_neg (by rw [dotPos_digits hf]; tauto), St.ite_run, if_neg (by rw [dotPos_digits hf]; tauto), St.ite_run,
      if_neg (by omega)]
    refine noLook_run (onNum_run ?_)
    rw [decodeNumber_digits hf nf, if_pos hk]
    exact hv
  unfold dateTimeField
  simp only
  rw [St.bind_ok hn, noLook_run (addMask_run hm)]

/-- A number taken as the year. -/
theorem plain_year {f : Bytes} (hf : DigitsOf 1 5 f) (hp : d.pType = .number)
    (h : (d.fMask &&& 14 = 0 ∧ (3 ≤ f.length ∨ order = .ymd)) ∨ d.fMask &&& 14 = 10) (hm : d.fMask &&& 4 = 0) :
    dateTimeField p plainLook order ft i (.number, f) (d, ()) =
      (.ok (), ({ d with tm := { d.tm with year := value f }, is2 := decide (f.length ≤ 2), tMask := 4,
                         fMask := d.fMask ||| 4 }, ())) :=
  field_plain (n := ⟨4, { d.tm with year := value f }, d.fSec, decide (f.length ≤ 2)⟩) hf.1 (DigitsOf.ne hf (by omega))
    hf.2.2 hp (nv_year _ h) (by rw [Nat.and_comm]; exact hm)

/-- A number taken as the month. -/
theorem plain_month {f : Bytes} (hf : DigitsOf 1 5 f) (hp : d.pType = .number)
    (h : (d.fMask &&& 14 = 0 ∧ f.length ≤ 2 ∧ order = .mdy) ∨ (d.fMask &&& 14 = 4 ∧ f.length ≠ 3) ∨ d.fMask &&& 14 = 8)
    (hm : d.fMask &&& 2 = 0) :
    dateTimeField p plainLook order ft i (.number, f) (d, ()) =
      (.ok (), ({ d with tm := { d.tm with mon := value f }, tMask := 2, fMask := d.fMask ||| 2 }, ())) :=
  field_plain (n := ⟨2, { d.tm with mon := value f }, d.fSec, d.is2⟩) hf.1 (DigitsOf.ne hf (by omega))
    hf.2.2 hp (nv_month _ h) (by rw [Nat.and_comm]; exact hm)

/-- A number taken as the day. -/
theorem plain_day {f : Bytes} (hf : DigitsOf 1 5 f) (hp : d.pType = .number)
    (h : (d.fMask &&& 14 = 0 ∧ f.length ≤ 2 ∧ order = .dmy) ∨ d.fMask &&& 14 = 2 ∨ d.fMask &&& 14 = 6)
    (hm : d.fMask &&& 8 = 0) :
    dateTimeField p plainLook order ft i (.number, f) (d, ()) =
      (.ok (), ({ d with tm := { d.tm with mday := value f }, tMask := 8, fMask := d.fMask ||| 8 }, ())) :=
  field_plain (n := ⟨8, { d.tm with mday := value f }, d.fSec, d.is2⟩) hf.1 (DigitsOf.ne hf (by omega))
    hf.2.2 hp (nv_day _ h) (by rw [Nat.and_comm]; exact hm)

/-- A month name after a number that had been taken as the month. -/
theorem field_month_swap {w : Bytes} {e : DateToken} (hs : searchDate w = .ok (some e)) (hty : e.ty = .month)
    (h2 : d.fMask &&& 2 = 2) (h8 : d.fMask &&& 8 = 0) (ht : d.textMonth = false) :
    if 1 ≤ d.tm.mon ∧ d.tm.mon ≤ 31 then
      dateTimeField p plainLook order ft i (.string, w) (d, ()) =
        (.ok (), ({ d with tm := { d.tm with mday := d.tm.mon, mon := e.value }, textMonth := true, tMask := 8,
                           fMask := d.fMask ||| 8 }, ()))
    else ∃ s, dateTimeField p plainLook order ft i (.string, w) (d, ()) = (.err .invalid, s) := by
  by_cases h : 1 ≤ d.tm.mon ∧ d.tm.mon ≤ 31
  · rw [if_pos h]
    refine field_word (d' := { d with tm := { d.tm with mday := d.tm.mon, mon := e.value }, textMonth := true, tMask := 8 })
      hs (by rw [hty]; decide) ?_ (by rw [Nat.and_comm]; exact h8)
    rw [hty]
    unfold wordAction
    rw [St.mod_bind]
    simp only
    unfold monthWord
    rw [St.mod_run, if_pos ⟨by rw [h2]; decide, ht, h8, h.1, h.2⟩]
  · rw [if_neg h]
    have hl : lookDate plainLook i w (d, ()) = (.ok (e.ty, e.value), (d, ())) := by
      unfold lookDate plainLook
      simp only [hs]
      rfl
    have ha : wordAction ft i e.ty e.value d =
        (.ok (), { d with tm := { d.tm with mon := e.value }, textMonth := true, tMask := 2 }) := by
      rw [hty]
      unfold wordAction
      rw [St.mod_bind]
      simp only
      unfold monthWord
      rw [St.mod_run, if_neg (by rintro ⟨-, -, -, q⟩; exact h q)]
      rfl
    have e : wordToken plainLook ft i w (d, ()) =
        (.ok false, ({ d with tm := { d.tm with mon := e.value }, textMonth := true, tMask := 2 }, ())) := by
      unfold wordToken
      rw [St.bind_ok hl]
      simp only
      rw [St.ite_run, if_neg (by rw [hty]; decide), St.bind_ok (noLook_run ha)]
      rfl
    unfold dateTimeField
    simp only
    rw [St.bind_ok e]
    simp only [Bool.false_eq_true, if_false]
    exact ⟨_, noLook_run (addMask_err (by
      show 2 &&& d.fMask ≠ 0
      rw [Nat.and_comm, h2]; decide))⟩

/-- The parts of the mask of fields seen. -/
theorem mask_start {f k : Nat} (h : f &&& 327182 = 0) (hk : 327182 &&& k = k) : f &&& k = 0 := by
  rw [← hk, ← Nat.and_assoc, h, Nat.zero_and]

theorem mask_or {f k : Nat} (a : Nat) (h : f &&& 327182 = 0) (hk : 327182 &&& k = k) : (f ||| a) &&& k = a &&& k := by
  rw [Nat.and_or_distrib_right, mask_start h hk, Nat.zero_or]

theorem mask_or2 {f k : Nat} (a b : Nat) (h : f &&& 327182 = 0) (hk : 327182 &&& k = k) :
    (f ||| a ||| b) &&& k = (a ||| b) &&& k := by
  rw [Nat.or_assoc]; exact mask_or _ h hk

theorem numOk_five {b : Bytes} (hb : DigitsOf 1 5 b) : NumOk b := by
  have hv := value_lt hb.1
  have : 10 ^ b.length ≤ 10 ^ 5 := Nat.pow_le_pow_right (by omega) hb.2.2
  have := hb.2.2
  exact ⟨by omega, by omega⟩

/-- The state after a day with a month name. -/
def monthDec (d : Dec) (ys : Bytes) (m dd : Int) (t k : Nat) : Dec :=
  { d with tm := { d.tm with year := value ys, mon := m, mday := dd }, is2 := decide (ys.length ≤ 2),
           textMonth := true, tMask := t, fMask := k }

theorem monthDec_state (h0 : DayStart d) {ys : Bytes} {m dd : Int} {t a b c : Nat} (h : (a ||| (b ||| c)) &&& 327182 = 14) :
    DayState (monthDec d ys m dd t (d.fMask ||| a ||| b ||| c)) ys m dd := by
  refine ⟨rfl, rfl, rfl, rfl, h0.bc, h0.julian, h0.mer, h0.dType, h0.pType, ?_, h0.hour, h0.min, h0.sec, h0.fSec⟩
  show (d.fMask ||| a ||| b ||| c) &&& 327182 = 14
  rw [Nat.or_assoc, Nat.or_assoc]
  exact (mask_or _ h0.mask (by decide)).trans h

section
variable {w a b : Bytes} {e : DateToken}

/-- A month name, the day, the year. -/
theorem reads_first (hs : searchDate w = .ok (some e)) (hty : e.ty = .month)
    (ha : DigitsOf 1 5 a) (hb : DigitsOf 1 5 b) (h0 : DayStart d) :
    ReadsDay p order d [(.string, w), (.number, a), (.number, b)] True b e.value (value a) := by
  refine ⟨fun _ => ⟨monthDec d b e.value (value a) 4 _, monthDec_state h0 (a := 2) (b := 8) (c := 4) (by decide),
    fun ft i rest => ?_⟩, fun h => absurd trivial h, fun h => absurd trivial h, hb.1, fun _ => numOk_five hb⟩
  have hm := h0.mask
  refine Eq.trans (loop_cons (field_month hs hty (mask_start hm (by decide)))) ?_
  refine Eq.trans (loop_cons (plain_day ha (by exact h0.pType) (Or.inr (Or.inl ((mask_or 2 hm (k := 14) (by decide)).trans (by decide))))
      ((mask_or 2 hm (by decide)).trans (by decide)))) ?_
  refine Eq.trans (loop_cons (plain_year hb (by exact h0.pType) (Or.inr ((mask_or2 2 8 hm (k := 14) (by decide)).trans (by decide)))
      ((mask_or2 2 8 hm (by decide)).trans (by decide)))) ?_
  rfl

/-- A number, a month name, a number; the first is the year. -/
theorem reads_middle_year (hs : searchDate w = .ok (some e)) (hty : e.ty = .month)
    (ha : DigitsOf 1 5 a) (hb : DigitsOf 1 5 b) (h0 : DayStart d) (hy : 3 ≤ a.length ∨ order = .ymd) :
    ReadsDay p order d [(.number, a), (.string, w), (.number, b)] True a e.value (value b) := by
  refine ⟨fun _ => ⟨monthDec d a e.value (value b) 8 _, monthDec_state h0 (a := 4) (b := 2) (c := 8) (by decide),
    fun ft i rest => ?_⟩, fun h => absurd trivial h, fun h => absurd trivial h, ha.1, fun _ => numOk_five ha⟩
  have hm := h0.mask
  refine Eq.trans (loop_cons (plain_year ha (by exact h0.pType) (Or.inl ⟨mask_start hm (by decide), hy⟩)
      (mask_start hm (by decide)))) ?_
  refine Eq.trans (loop_cons (field_month hs hty ((mask_or 4 hm (by decide)).trans (by decide)))) ?_
  refine Eq.trans (loop_cons (plain_day hb (by exact h0.pType) (Or.inr (Or.inr ((mask_or2 4 2 hm (k := 14) (by decide)).trans (by decide))))
      ((mask_or2 4 2 hm (by decide)).trans (by decide)))) ?_
  rfl

/-- The day, a month name, the year, in the order day-month-year. -/
theorem reads_middle_dmy (hs : searchDate w = .ok (some e)) (hty : e.ty = .month)
    (ha : DigitsOf 1 5 a) (hb : DigitsOf 1 5 b) (h0 : DayStart d) (hl : a.length ≤ 2) :
    ReadsDay p .dmy d [(.number, a), (.string, w), (.number, b)] True b e.value (value a) := by
  refine ⟨fun _ => ⟨monthDec d b e.value (value a) 4 _, monthDec_state h0 (a := 8) (b := 2) (c := 4) (by decide),
    fun ft i rest => ?_⟩, fun h => absurd trivial h, fun h => absurd trivial h, hb.1, fun _ => numOk_five hb⟩
  have hm := h0.mask
  refine Eq.trans (loop_cons (plain_day ha (by exact h0.pType) (Or.inl ⟨mask_start hm (by decide), hl, rfl⟩)
      (mask_start hm (by decide)))) ?_
  refine Eq.trans (loop_cons (field_month hs hty ((mask_or 8 hm (by decide)).trans (by decide)))) ?_
  refine Eq.trans (loop_cons (plain_year hb (by exact h0.pType) (Or.inr ((mask_or2 8 2 hm (k := 14) (by decide)).trans (by decide)))
      ((mask_or2 8 2 hm (by decide)).trans (by decide)))) ?_
  rfl

/-- The day, a month name, the year, in the order month-day-year: the day is first taken as the month. -/
theorem reads_middle_mdy (hs : searchDate w = .ok (some e)) (hty : e.ty = .month)
    (ha : DigitsOf 1 5 a) (hb : DigitsOf 1 5 b) (h0 : DayStart d) (hl : a.length ≤ 2) :
    ReadsDay p .mdy d [(.number, a), (.string, w), (.number, b)] (1 ≤ value a ∧ value a ≤ 31) b e.value (value a) := by
  have hm := h0.mask
  have s1 := fun ft i => plain_month (p := p) (order := .mdy) (ft := ft) (i := i) (d := d) ha (by exact h0.pType)
    (Or.inl ⟨mask_start hm (by decide), hl, rfl⟩) (mask_start hm (by decide))
  have s2 := fun ft i => field_month_swap (p := p) (order := .mdy) (ft := ft) (i := i + 1)
    (d := { d with tm := { d.tm with mon := value a }, tMask := 2, fMask := d.fMask ||| 2 }) hs hty
    ((mask_or 2 hm (by decide)).trans (by decide)) ((mask_or 2 hm (by decide)).trans (by decide)) h0.text
  refine ⟨fun hr => ⟨monthDec d b e.value (value a) 4 _, monthDec_state h0 (a := 2) (b := 8) (c := 4) (by decide),
    fun ft i rest => ?_⟩, fun hr ft i rest => ?_, fun hr bc day hd => ?_, hb.1, fun _ => numOk_five hb⟩
  · have s2 := s2 ft i
    rw [if_pos (by simp only; omega)] at s2
    refine Eq.trans (loop_cons (s1 ft i)) ?_
    refine Eq.trans (loop_cons s2) ?_
    refine Eq.trans (loop_cons (plain_year hb (by exact h0.pType) (Or.inr ((mask_or2 2 8 hm (k := 14) (by decide)).trans (by decide)))
        ((mask_or2 2 8 hm (by decide)).trans (by decide)))) ?_
    rfl
  · have s2 := s2 ft i
    rw [if_neg (by simp only; omega)] at s2
    obtain ⟨s, s2⟩ := s2
    exact ⟨_, _, (loop_cons (s1 ft i)).trans (loop_cons_err s2)⟩
  · rw [namedDay_badDay (by omega)] at hd
    cases hd

end

end

end Pg
