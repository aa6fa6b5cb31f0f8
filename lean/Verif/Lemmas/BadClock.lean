import Verif.Lemmas.Vocabulary
import Verif.Lemmas.MasksTime
import Verif.Lemmas.Clocks
import Verif.Lemmas.TimeOnly
import Verif.Lemmas.Forms
import Verif.Spec.BadClock

/-!
# Clock times that are not accepted
-/

namespace Pg
open Spec

/-- The parts of a clock word. -/
structure ClockParts (P : Nat → Nat → Nat → Int → Prop) (w : Bytes) where
  hh : Bytes
  mm : Bytes
  ss : Bytes
  f : Option Bytes
  eq : w = hmsBytes hh mm ss f
  h1 : Digits hh
  n1 : hh ≠ []
  h2 : Digits mm
  n2 : mm ≠ []
  h3 : Digits ss
  n3 : ss ≠ []
  hf : Digits (fracDigits f)
  bad : ∀ us, NearestMicros (fracDigits f) us → P (value hh) (value mm) (value ss) us

theorem scan_clock {P : Nat → Nat → Nat → Int → Prop} {u : TokenField} {s : Bytes} (h : HasWord (ClockWord P) s) {l : List Field}
    (hs : scan u s = .ok l) : ∃ l1 f l2, l = l1 ++ f :: l2 ∧ f.1 = .time ∧ Nonempty (ClockParts P f.2) := by
  refine scan_word (Q := fun f => f.1 = .time ∧ Nonempty (ClockParts P f.2)) ?_ h hs
  rintro x c fuel cap nf l ⟨hh, mm, ss, f, r, rfl, ⟨h1, n1⟩, ⟨h2, n2⟩, ⟨h3, n3⟩, hf, hr, hP⟩ hc hl hs
  have ef : f.getD [] = fracDigits f := by cases f <;> rfl
  rw [ef] at hf hP
  have hst : Stops isTimeB (r ++ c) := by
    cases r with
    | nil =>
      rcases hc with rfl | ⟨a, t, rfl, ha⟩
      · exact Stops.nil _
      · refine Stops.cons (c := a) ?_
        have := space_digit a ha
        have h58 : a ≠ 58 := by rintro rfl; revert ha; decide
        have h46 : a ≠ 46 := by rintro rfl; revert ha; decide
        simp [isTimeB, this, h58, h46]
    | cons b t =>
      refine Stops.cons ?_
      obtain ⟨q1, q2, q3⟩ := hr b rfl
      have : isDigit b = false := by rw [Bool.eq_false_iff, ne_eq, isDigit_iff]; exact q1
      simp [isTimeB, this, q2, q3]
  have hw : Mark.clock.Is (hmsText hh mm ss f) := by
    rw [hmsText_bytes]
    refine ⟨hh, mm ++ 58 :: (ss ++ fracBytes f), by simp [hmsBytes], n1, h1, fun b hb => ?_⟩
    have := hms_timeB h2 h3 hf b hb
    simp only [isTimeB, Bool.or_eq_true, isDigit_iff, decide_eq_true_eq] at this
    unfold Digit
    tauto
  obtain ⟨b, t, e, k1, k2⟩ := clock_scan (u := u) hw hst
  rw [List.append_assoc] at hl hs
  have e' : hmsText hh mm ss f ++ (r ++ c) = b :: (t ++ (r ++ c)) := by rw [e]; rfl
  rw [e'] at hl hs k2
  obtain ⟨l', n, cap', nf', rfl, rfl, -⟩ := scanLoop_step k1 k2 hl hs
  exact ⟨[], _, l', rfl, rfl, ⟨⟨hh, mm, ss, f, hmsText_bytes _ _ _ _, h1, n1, h2, n2, h3, n3, hf, hP⟩⟩⟩

/-- What `decode_time` makes of a clock word. -/
theorem decodeTime_parts {P : Nat → Nat → Nat → Int → Prop} {w : Bytes} (k : ClockParts P w) (range : Nat) (t : TimeS) :
    Post (decodeTime w range) (fun _ t' => t'.tMask = 31744 ∧
      ∃ h m s : Nat, h ≤ 2147483647 ∧ m ≤ 59 ∧ s ≤ 60 ∧ t'.tm.hour = h ∧ t'.tm.min = m ∧ t'.tm.sec = s ∧ 0 ≤ t'.fsec ∧ P h m s t'.fsec) t := by
  obtain ⟨hh, mm, ss, f, rfl, h1, n1, h2, n2, h3, n3, hf, hP⟩ := k
  intro a t' e
  by_cases hr : Readable hh mm ss f ∧ value hh ≤ 2147483647 ∧ value mm ≤ 59 ∧ value ss ≤ 60
  · rw [decodeTime_ok h1 n1 h2 n2 h3 n3 hf hr.1 hr.2.1 hr.2.2.1 hr.2.2.2] at e
    cases e
    exact ⟨rfl, _, _, _, hr.2.1, hr.2.2.1, hr.2.2.2, rfl, rfl, rfl, (fracMicros_bounds hf hr.1.2.2.2).1,
      hP _ (fracMicros_nearest hf hr.1.2.2.2)⟩
  · obtain ⟨e1, t1, h⟩ := decodeTime_err h1 n1 h2 n2 h3 n3 hf hr range t
    rw [h] at e
    cases e

variable {p : Profile} {order : DateOrder} {ftypes : List TokenField} {i : Nat}

/-- In a date or timestamp. -/
theorem clock_refused {f : Field} (h : f.1 = .time) (k : ClockParts (fun h m s us => ¬ ClockInput h m s us) f.2) (s : Dec × Unit) :
    Post (dateTimeField p plainLook order ftypes i f) (fun _ _ => False) s := by
  unfold dateTimeField timeToken onTime
  rw [h]
  wp
  intro _
  rw [Post.zoom]
  refine (decodeTime_parts k _ _).mono fun _ t ht => ?_
  obtain ⟨-, h, m, s, b1, b2, b3, e1, e2, e3, e0, hb⟩ := ht
  dsimp only
  intro hn
  refine (hb ?_).elim
  unfold ClockInput
  omega

/-- In an interval. -/
theorem clock_refusedI {range : Nat} {f : Field} (h : f.1 = .time) (k : ClockParts (fun _ m s _ => 59 < m ∨ 60 < s) f.2) (s : IvS × Unit) :
    Post (intervalField p plainLook range i f) (fun _ _ => False) s := by
  unfold intervalField onTimeI
  rw [h]
  wp
  rw [Post.zoom]
  refine (decodeTime_parts k _ _).mono fun _ t ht => ?_
  obtain ⟨-, h, m, s, b1, b2, b3, e1, e2, e3, e0, hb⟩ := ht
  omega

/-! ## Times: a clock time that is out of range stays -/

/-- A clock time later than 24:00 has been seen. -/
structure Overdue (d : Dec) : Prop where
  mask : d.fMask &&& 31744 = 31744
  late : d.tm.hour > 24 ∨ (d.tm.hour = 24 ∧ (d.tm.min > 0 ∨ d.tm.sec > 0 ∨ d.fSec > 0))

/-- The clock fields are unchanged, or the time is claimed. -/
def ClockKept (d d' : Dec) : Prop :=
  d'.fMask = d.fMask ∧ ((d'.tm.hour = d.tm.hour ∧ d'.tm.min = d.tm.min ∧ d'.tm.sec = d.tm.sec ∧ d'.fSec = d.fSec) ∨
    d'.tMask &&& 31744 ≠ 0)

theorem Overdue.step {d d' : Dec} (h : Overdue d) (k : ClockKept d d') : Post addMask (fun _ s => Overdue s) d' := by
  rw [addMask_post]
  intro hm
  obtain ⟨e, k⟩ := k
  rcases k with ⟨k1, k2, k3, k4⟩ | k
  · refine ⟨?_, ?_⟩
    · dsimp only
      rw [e, Nat.and_or_distrib_right, h.mask]
      apply Nat.eq_of_testBit_eq
      intro j
      simp only [Nat.testBit_or, Nat.testBit_and]
      cases Nat.testBit 31744 j <;> simp
    · dsimp only; rw [k1, k2, k3, k4]; exact h.late
  · exfalso
    apply k
    have := h.mask
    rw [e] at hm
    apply Nat.eq_of_testBit_eq
    intro j
    have h1 := congrArg (fun n => n.testBit j) this
    have h2 := congrArg (fun n => n.testBit j) hm
    simp only [Nat.testBit_and, Nat.zero_testBit] at h1 h2 ⊢
    cases h3 : Nat.testBit 31744 j <;> cases h4 : d'.tMask.testBit j <;> simp_all

theorem numberTime_refused {str : Bytes} {len m : Nat} (hm : m &&& 31744 = 31744) (s : NumS) :
    Post (numberTime str len m) (fun _ _ => False) s := by
  unfold numberTime
  rw [if_neg (fun h => h.1 hm), if_neg (fun h => h.1 hm), Post.fail]
  trivial

theorem full_or {m : Nat} (hm : m &&& 31744 = 31744) : (m ||| DTK_DATE_M) &&& 31744 = 31744 := by
  rw [Nat.and_or_distrib_right, hm]
  decide

theorem date_or (m : Nat) : (m ||| DTK_DATE_M) &&& DTK_DATE_M = DTK_DATE_M := by
  apply Nat.eq_of_testBit_eq
  intro j
  simp only [Nat.testBit_or, Nat.testBit_and]
  cases Nat.testBit DTK_DATE_M j <;> simp

theorem numberField_never {str : Bytes} {m : Nat} (hm : m &&& 31744 = 31744) (s : NumS) :
    Post (decodeNumberField str (m ||| DTK_DATE_M)) (fun _ _ => False) s := by
  unfold decodeNumberField
  have := fun len s => @numberTime_refused str len _ (full_or hm) s
  wp
  refine ⟨fun _ _ _ => this _ _, fun _ => ⟨fun h => absurd (date_or m) h.1, fun _ => this _ _⟩⟩

theorem onNum_never {α : Type} {m : St NumS α} (h : ∀ s, Post m (fun _ _ => False) s) (d : Dec) :
    Post (onNum m) (fun _ _ => False) d := by
  unfold onNum
  rw [Post.zoom]
  exact h _

theorem number_never {str : Bytes} {m : Nat} (hm : m &&& 31744 = 31744) (hd : dotPos str = str.length) (s : NumS) :
    Post (decodeNumber str false (m ||| DTK_DATE_M) order) (fun _ _ => False) s := by
  unfold decodeNumber
  rw [Post.bind, Post.mod, Post.bind, Post.lift]
  rintro ⟨v, r⟩ ha
  dsimp only
  rw [Post.ite]
  refine ⟨fun _ => by rw [Post.fail]; trivial, fun _ => ?_⟩
  have hn := fun s => numberField_never (str := str) hm s
  split
  · unfold decodeNumberVal numberByMask
    rw [date_or]
    simp only [show ¬ (DTK_DATE_M = 0) by decide, show ¬ (DTK_DATE_M = DTK_YEAR_M) by decide, show ¬ (DTK_DATE_M = DTK_MONTH_M) by decide,
      show ¬ (DTK_DATE_M = DTK_YEAR_MONTH_M) by decide, show ¬ (DTK_DATE_M = DTK_DAY_M) by decide,
      show ¬ (DTK_DATE_M = DTK_MONTH_DAY_M) by decide, false_and, and_false, if_false, if_true]
    rw [Post.bind, Post.bind]
    exact (hn _).mono fun _ _ h => h.elim
  · rename_i c t
    rw [Post.ite]
    refine ⟨fun hc => ?_, fun _ => by rw [Post.fail]; trivial⟩
    subst hc
    exfalso
    obtain ⟨a, e, h46⟩ := str2i32_prefix ha
    unfold dotPos at hd
    rw [e, takeWhile_span (fun b hb => by simpa using h46 b hb) (Stops.cons (by decide))] at hd
    simp at hd

theorem labelled_kept {d : Dec} (h : Overdue d) (w : Bytes) : Post (labelled p w) (fun _ d' => ClockKept d d') d := by
  unfold labelled
  rw [Post.bind, Post.get, Post.bind, Post.lift]
  rintro ⟨v, r⟩ -
  dsimp only
  rw [Post.ite]
  refine ⟨fun _ => by rw [Post.fail]; trivial, fun _ => ?_⟩
  rw [Post.ite]
  refine ⟨fun _ => by rw [Post.fail]; trivial, fun _ => ?_⟩
  rw [Post.bind]
  suffices Post (labelAssign p d.pType w v r) (fun _ d' => ClockKept d d') d from
    this.mono fun _ d' k => by rw [Post.mod]; exact k
  have same : ∀ {d' : Dec}, d'.fMask = d.fMask → d'.tm.hour = d.tm.hour → d'.tm.min = d.tm.min → d'.tm.sec = d.tm.sec → d'.fSec = d.fSec →
      ClockKept d d' := fun a b c e f => ⟨a, Or.inl ⟨b, c, e, f⟩⟩
  have claim : ∀ {d' : Dec}, d'.fMask = d.fMask → d'.tMask &&& 31744 ≠ 0 → ClockKept d d' := fun a b => ⟨a, Or.inr b⟩
  unfold labelAssign
  split
  · rw [Post.mod]; exact same rfl rfl rfl rfl rfl
  · rw [Post.mod]
    split
    · exact claim rfl (by dsimp only; decide)
    · exact same rfl rfl rfl rfl rfl
  · rw [Post.mod]; exact same rfl rfl rfl rfl rfl
  · rw [Post.mod]; exact claim rfl (by dsimp only; decide)
  · rw [Post.mod]; exact claim rfl (by dsimp only; decide)
  · wp
    exact ⟨fun _ _ _ => claim rfl (by dsimp only; decide), fun _ => claim rfl (by dsimp only; decide)⟩
  · unfold labelJulian
    wp
    intro _ a _
    refine ⟨fun _ b _ c _ => claim rfl (by dsimp only; decide), fun _ => same rfl rfl rfl rfl rfl⟩
  · rw [Post.bind, Post.get, Post.bind]
    exact (onNum_never (fun s => numberField_never h.mask s) d).mono fun _ _ h => h.elim
  · rw [Post.fail]; trivial

theorem numberT_kept {s : Dec × Unit} (h : Overdue s.1) (hi : 0 < i) (w : Bytes) :
    Post (numberTokenT p plainLook order ftypes i w) (fun _ s' => ClockKept s.1 s'.1) s := by
  have hn := fun s => onNum_never (fun s => numberField_never (str := w) h.mask s) s
  unfold numberTokenT
  rw [Post.bind, Post.noLook, Post.get, Post.ite, Post.ite, Post.ite, Post.ite, Post.ite]
  refine ⟨fun _ => ?_, fun _ => ⟨fun _ => ⟨fun h0 => absurd h0.1 (by omega), fun _ => ⟨fun _ => ?_, fun _ => by rw [Post.fail]; trivial⟩⟩,
    fun hd => ⟨fun _ => ?_, fun _ => ?_⟩⟩⟩
  · rw [Post.noLook]; exact labelled_kept h w
  · rw [Post.bind, Post.noLook]; exact (hn _).mono fun _ _ h => h.elim
  · rw [Post.bind, Post.noLook]; exact (hn _).mono fun _ _ h => h.elim
  · rw [Post.noLook]
    exact (onNum_never (fun s => number_never h.mask (by omega) s) _).mono fun _ _ h => h.elim

theorem wordT_kept (s : Dec × Unit) (w : Bytes) :
    Post (wordTokenT plainLook ftypes i w) (fun b s' => ClockKept s.1 s'.1 ∧ (b = true → s' = s)) s := by
  have same : ∀ {d d' : Dec}, d'.fMask = d.fMask → d'.tm.hour = d.tm.hour → d'.tm.min = d.tm.min → d'.tm.sec = d.tm.sec → d'.fSec = d.fSec →
      ClockKept d d' := fun a b c e f => ⟨a, Or.inl ⟨b, c, e, f⟩⟩
  unfold wordTokenT
  rw [Post.bind, Post.look]
  dsimp only
  rw [Post.ite]
  refine ⟨fun _ => by rw [Post.pure]; exact ⟨same rfl rfl rfl rfl rfl, fun _ => rfl⟩, fun _ => ?_⟩
  rw [Post.bind, Post.noLook]
  suffices ∀ ty v, Post (wordActionT ftypes i ty v) (fun _ d' => ClockKept s.1 d') s.1 from
    (this _ _).mono fun _ _ h => by rw [Post.pure]; exact ⟨h, fun h => by cases h⟩
  intro ty v
  unfold wordActionT
  rw [Post.bind, Post.mod]
  split
  · unfold reservedWordT
    wp
    intro a _
    split <;> wp
    exact ⟨rfl, Or.inr (by dsimp only; decide)⟩
  · rw [Post.mod]; exact same rfl rfl rfl rfl rfl
  · rw [Post.mod]; exact same rfl rfl rfl rfl rfl
  · wp
    exact fun _ _ => same rfl rfl rfl rfl rfl
  · unfold isoTimeWordT
    wp
    split
    · wp
    · wp
      exact fun _ _ _ => same rfl rfl rfl rfl rfl
  · wp

theorem fieldT_overdue {s : Dec × Unit} (h : Overdue s.1) (hi : 0 < i) (f : Field) :
    Post (timeOnlyField p plainLook order ftypes i f) (fun _ s' => Overdue s'.1) s := by
  have word : Post (wordTokenT plainLook ftypes i f.2) (fun b s' => (b = true → Overdue s'.1) ∧
      (¬ b = true → Post addMask (fun _ d => Overdue d) s'.1)) s :=
    (wordT_kept s f.2).mono fun b s' k => ⟨fun hb => by rw [k.2 hb]; exact h, fun _ => h.step k.1⟩
  unfold timeOnlyField
  split
  · unfold dateTokenT
    rw [if_neg (by omega)]
    wp
  · wp
    unfold onTime
    rw [Post.zoom]
    refine (decodeTime_mask f.2 _ _).mono fun _ t ht => ?_
    refine h.step ⟨rfl, Or.inr ?_⟩
    dsimp only
    rw [ht]
    decide
  · wp
    exact (numberT_kept h hi f.2).mono fun _ s' k => h.step k
  · wp
    exact word
  · wp
    exact word
  · wp

theorem loopT_overdue : ∀ (l : List Field) (i : Nat) (s : Dec × Unit), 0 < i → Overdue s.1 →
    Post (timeOnlyLoop p plainLook order ftypes l i) (fun _ s' => Overdue s'.1) s := by
  intro l
  induction l with
  | nil => intro i s _ h; rw [timeOnlyLoop, Post.pure]; exact h
  | cons f l ih =>
    intro i s hi h
    rw [timeOnlyLoop, Post.bind]
    exact (fieldT_overdue h hi f).mono fun _ s' h' => ih _ _ (by omega) h'

/-- In a time. -/
theorem decode_clockT {f : Field} (h : f.1 = .time) (k : ClockParts (fun h m s us => ¬ ClockInput h m s us) f.2)
    (l1 l2 : List Field) (c : Unit) : Post (decodeTimeOnly p plainLook order (l1 ++ f :: l2)) (fun _ _ => False) ({}, c) := by
  unfold decodeTimeOnly
  rw [Post.bind]
  have first : ∀ (ft : List TokenField) (l1 : List Field) (i : Nat) (s : Dec × Unit),
      Post (timeOnlyLoop p plainLook order ft (l1 ++ f :: l2) i) (fun _ s' => Overdue s'.1) s := by
    intro ft l1
    induction l1 with
    | nil =>
      intro i s
      rw [List.nil_append, timeOnlyLoop, Post.bind]
      suffices Post (timeOnlyField p plainLook order ft i f) (fun _ s' => Overdue s'.1) s from
        this.mono fun _ s' h' => loopT_overdue l2 (i + 1) s' (by omega) h'
      unfold timeOnlyField onTime
      rw [h]
      wp
      rw [Post.zoom]
      refine (decodeTime_parts k _ _).mono fun _ t ht => ?_
      obtain ⟨hm, h, m, s, b1, b2, b3, e1, e2, e3, e0, hb⟩ := ht
      rw [addMask_post]
      intro _
      refine ⟨?_, ?_⟩
      · dsimp only
        rw [hm]
        apply Nat.eq_of_testBit_eq
        intro j
        simp only [Nat.testBit_or, Nat.testBit_and]
        cases Nat.testBit 31744 j <;> simp
      · dsimp only
        unfold ClockInput at hb
        omega
    | cons g l1 ih =>
      intro i s
      rw [List.cons_append, timeOnlyLoop, Post.bind]
      exact Post.any fun _ s' => ih _ s'
  refine (first _ l1 0 _).mono fun _ s hs => ?_
  rw [Post.bind, Post.noLook]
  unfold finishFields
  wp
  intro tm htm hn
  obtain ⟨e1, e2, e3⟩ := validateDate_clock htm
  have hl := hs.late
  have key : ∀ d : Dec, d.tm.hour = tm.hour → d.tm.min = tm.min → d.tm.sec = tm.sec → d.fSec = s.1.fSec → badTimeOnly d = true := by
    intro d a1 a2 a3 a4
    unfold badTimeOnly
    simp only [Bool.or_eq_true, Bool.and_eq_true, decide_eq_true_eq]
    omega
  refine ⟨fun h2 => by omega, fun _ => ⟨fun h2 x hx => ?_, fun _ hb => ?_⟩⟩
  · exact absurd ⟨by omega, by omega⟩ hn
  · exact hb (key _ rfl rfl rfl rfl)

end Pg
