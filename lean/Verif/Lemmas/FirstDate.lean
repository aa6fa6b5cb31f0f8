import Verif.Lemmas.BadClock
import Verif.Lemmas.DateInput
import Verif.Lemmas.DigitRuns
import Verif.Props.Special
import Verif.Spec.FirstDate

/-!
# Texts that start with a numeric date
-/

namespace Pg
open Spec

/-- The scanner on a text that starts with a numeric date. -/
theorem scan_first {a b c s : Bytes} {u : TokenField} (h : StartsWithDate a b c s) {l : List Field} (hs : scan u s = .ok l) :
    ∃ d l', isSep d ∧ l = (.date, a ++ d :: (b ++ d :: c)) :: l' := by
  obtain ⟨x, d, r, w, hw, rfl, hd, ⟨ha, na⟩, ⟨hb, nb⟩, ⟨hc, nc⟩, -, hr⟩ := h
  have hd : isSep d := hd
  obtain ⟨sp, t, rfl, h2, h3, h4, h5, h6⟩ := first_word hw
  have hst : Stops (fun x => x = d || isDigit x) (r ++ t) := by
    cases r with
    | nil => exact delim_take hd h5 space_digit
    | cons y r =>
      refine Stops.cons ?_
      obtain ⟨q1, q2⟩ := hr y rfl
      have : isDigit y = false := by rw [Bool.eq_false_iff, ne_eq, isDigit_iff]; exact q1
      simp [this, q2]
  have hsc : scanDigit (a ++ (d :: (b ++ d :: c) ++ (r ++ t))) = ((.date, a ++ d :: (b ++ d :: c)), r ++ t) := by
    rw [scanDigit, List.cons_append, takeWhile_span (digits_isDigit ha) (Stops.cons hd.notDigit),
      dropWhile_span (digits_isDigit ha) (Stops.cons hd.notDigit)]
    simp only
    obtain ⟨y, z, e, hy, -⟩ := digit_head (r := d :: (c ++ (r ++ t))) hb nb
    have hsd : scanDelim d (b ++ d :: c ++ (r ++ t)) = (.date, d :: (b ++ d :: c), r ++ t) := by
      rw [List.append_assoc, List.cons_append]
      rw [e, scanDelim, if_pos hy, ← e, dropWhile_span (digits_isDigit hb) (Stops.cons hd.notDigit),
        takeWhile_span (digits_isDigit hb) (Stops.cons hd.notDigit)]
      simp only [List.head?_cons, if_true]
      have hall : ∀ y ∈ d :: c, (decide (y = d) || isDigit y) = true := by
        intro y hy
        rcases List.mem_cons.1 hy with rfl | hy
        · simp
        · simp [digits_isDigit hc y hy]
      have e5 : d :: (c ++ (r ++ t)) = (d :: c) ++ (r ++ t) := rfl
      rw [e5, takeWhile_span hall hst, dropWhile_span hall hst]
    rw [hsd]
    rcases hd with rfl | rfl | rfl <;> simp
  obtain ⟨b', r', e, k1, k2⟩ := digit_word (u := u) ha na hsc
  unfold scan at hs
  split at hs
  · cases hs
  have en : numericDate d a b c ++ r ++ t = b' :: (r' ++ (d :: (b ++ d :: c) ++ (r ++ t))) := by
    rw [e]; simp [numericDate]
  have e1 : scanLoop u ((sp ++ (numericDate d a b c ++ r ++ t)).length + 1) (sp ++ (numericDate d a b c ++ r ++ t)) MAX_DATE_LEN 0 =
      scanLoop u ((sp ++ (numericDate d a b c ++ r ++ t)).length + 1) (numericDate d a b c ++ r ++ t) MAX_DATE_LEN 0 := by
    rw [scanLoop, scanLoop]
    have hb' : isSpace b' = false := startB_noSpace k1
    rw [dropWhile_span h2 (by rw [en]; exact Stops.cons hb'), en, dropWhile_stop (Stops.cons hb')]
  rw [e1] at hs
  rw [en] at hs
  have k3 : a ++ (d :: (b ++ d :: c) ++ (r ++ t)) = b' :: (r' ++ (d :: (b ++ d :: c) ++ (r ++ t))) := by rw [e]; rfl
  rw [k3] at k2
  obtain ⟨l', _, _, _, rfl, -, -⟩ := scanLoop_step k1 k2 (by simp; omega) hs
  exact ⟨d, l', hd, rfl⟩

/-! ## The day stays -/

/-- The day with the given parts has been read. -/
structure DaySet (y : Bytes) (m d : Int) (s : Dec) : Prop where
  mask : s.fMask &&& 14 = 14
  doy : s.fMask &&& 32768 = 0
  doy' : s.tMask &&& 32768 = 0
  year : s.tm.year = value y
  mon : s.tm.mon = m
  day : s.tm.mday = d
  is2 : s.is2 = decide (y.length ≤ 2)
  julian : s.isJulian = false

/-- The date fields are unchanged, or a part of the date is claimed. -/
def DateKept (d d' : Dec) : Prop :=
  d'.fMask = d.fMask ∧ ((d'.tm.year = d.tm.year ∧ d'.tm.mon = d.tm.mon ∧ d'.tm.mday = d.tm.mday ∧ d'.is2 = d.is2 ∧
    d'.isJulian = d.isJulian ∧ d'.tMask &&& 32768 = 0) ∨ d'.tMask &&& 14 ≠ 0)

theorem and_none {a b m : Nat} (h : a &&& m = m) (hb : b &&& a = 0) : b &&& m = 0 := by
  rw [← h, ← Nat.and_assoc, hb, Nat.zero_and]

theorem DaySet.step {y : Bytes} {m dd : Int} {d d' : Dec} (h : DaySet y m dd d) (k : DateKept d d') :
    Post addMask (fun _ s => DaySet y m dd s) d' := by
  rw [addMask_post]
  intro hm
  obtain ⟨e, k⟩ := k
  rcases k with ⟨k1, k2, k3, k4, k5, k6⟩ | k
  · refine ⟨?_, ?_, k6, k1.trans h.year, k2.trans h.mon, k3.trans h.day, k4.trans h.is2, k5.trans h.julian⟩
    · dsimp only
      rw [e, Nat.and_or_distrib_right, h.mask]
      apply Nat.eq_of_testBit_eq
      intro j
      simp only [Nat.testBit_or, Nat.testBit_and]
      cases Nat.testBit 14 j <;> simp
    · dsimp only
      rw [e, Nat.and_or_distrib_right, h.doy, k6]
      rfl
  · rw [e] at hm
    exact absurd (and_none h.mask hm) k

theorem DateKept.same {d d' : Dec} (a : d'.fMask = d.fMask) (b : d'.tm.year = d.tm.year) (c : d'.tm.mon = d.tm.mon)
    (e : d'.tm.mday = d.tm.mday) (f : d'.is2 = d.is2) (g : d'.isJulian = d.isJulian) (k : d'.tMask &&& 32768 = 0) : DateKept d d' :=
  ⟨a, Or.inl ⟨b, c, e, f, g, k⟩⟩
theorem DateKept.claim {d d' : Dec} (a : d'.fMask = d.fMask) (b : d'.tMask &&& 14 ≠ 0) : DateKept d d' := ⟨a, Or.inr b⟩

/-- A number read as a clock time leaves the date. -/
theorem numberTime_date {str : Bytes} {len m : Nat} (s : NumS) :
    Post (numberTime str len m) (fun _ s' => s'.tMask = 31744 ∧ s'.tm.year = s.tm.year ∧ s'.tm.mon = s.tm.mon ∧
      s'.tm.mday = s.tm.mday ∧ s'.is2 = s.is2) s := by
  unfold numberTime
  wp

theorem numberField_date {str : Bytes} {m : Nat} (hm : m &&& 14 = 14) (s : NumS) :
    Post (decodeNumberField str m) (fun _ s' => s'.tMask = 31744 ∧ s'.tm.year = s.tm.year ∧ s'.tm.mon = s.tm.mon ∧
      s'.tm.mday = s.tm.mday ∧ s'.is2 = s.is2) s := by
  unfold decodeNumberField
  wp
  exact ⟨fun _ _ _ => numberTime_date (s := { s with fsec := _ }), fun _ => ⟨fun h => absurd hm h.1, fun _ => numberTime_date s⟩⟩

theorem onNum_date {α : Type} {x : St NumS α} {d : Dec} (h : ∀ s, Post x (fun _ s' => s'.tMask = 31744 ∧ s'.tm.year = s.tm.year ∧
    s'.tm.mon = s.tm.mon ∧ s'.tm.mday = s.tm.mday ∧ s'.is2 = s.is2) s) : Post (onNum x) (fun _ d' => DateKept d d') d := by
  unfold onNum
  rw [Post.zoom]
  refine (h _).mono fun _ s' k => ?_
  obtain ⟨k1, k2, k3, k4, k5⟩ := k
  exact .same rfl k2 k3 k4 k5 rfl (by dsimp only; rw [k1]; decide)

theorem number_date {order : DateOrder} {str : Bytes} {m : Nat} (hm : m &&& 14 = 14) (hd : dotPos str ≤ 2 ∨ dotPos str = str.length) (s : NumS) :
    Post (decodeNumber str false m order) (fun _ s' => s'.tMask = 31744 ∧ s'.tm.year = s.tm.year ∧ s'.tm.mon = s.tm.mon ∧
      s'.tm.mday = s.tm.mday ∧ s'.is2 = s.is2) s := by
  have val : ∀ v s, Post (decodeNumberVal str v false m order) (fun _ s' => s'.tMask = 31744 ∧ s'.tm.year = s.tm.year ∧ s'.tm.mon = s.tm.mon ∧
      s'.tm.mday = s.tm.mday ∧ s'.is2 = s.is2) s := by
    intro v s
    unfold decodeNumberVal numberByMask
    rw [hm]
    simp only [show ¬ ((14 : Nat) = 0) by decide, show ¬ ((14 : Nat) = DTK_YEAR_M) by decide, show ¬ ((14 : Nat) = DTK_MONTH_M) by decide,
      show ¬ ((14 : Nat) = DTK_YEAR_MONTH_M) by decide, show ¬ ((14 : Nat) = DTK_DAY_M) by decide,
      show ¬ ((14 : Nat) = DTK_MONTH_DAY_M) by decide, false_and, and_false, if_false, if_true]
    rw [Post.bind, Post.bind]
    refine (numberField_date hm s).mono fun _ s' k => ?_
    rw [Post.pure, Post.mod, if_neg (by simp)]
    exact k
  unfold decodeNumber
  rw [Post.bind, Post.mod, Post.bind, Post.lift]
  rintro ⟨v, r⟩ ha
  dsimp only
  rw [Post.ite]
  refine ⟨fun _ => by rw [Post.fail]; trivial, fun _ => ?_⟩
  split
  · exact val v { s with tMask := 0 }
  · rename_i c t
    rw [Post.ite]
    refine ⟨fun hc => ?_, fun _ => by rw [Post.fail]; trivial⟩
    subst hc
    obtain ⟨x, e, h46⟩ := str2i32_prefix ha
    unfold dotPos at hd
    rw [e, takeWhile_span (fun b hb => by simpa using h46 b hb) (Stops.cons (by decide))] at hd
    rw [Post.ite]
    refine ⟨fun hl => ?_, fun _ => ?_⟩
    · exfalso
      rw [e] at hl
      simp at hl hd
      omega
    · rw [Post.bind, Post.lift]
      intro f _
      rw [Post.bind, Post.mod]
      exact val v { s with tMask := 0, fsec := f }

variable {p : Profile} {order : DateOrder} {ftypes : List TokenField} {i : Nat} {y : Bytes} {m dd : Int}

theorem or_date {m : Nat} (h : m &&& 14 = 14) : (m ||| 14) &&& 14 = 14 := by
  rw [Nat.and_or_distrib_right, h]; rfl

theorem labelled_date {d : Dec} (h : DaySet y m dd d) (w : Bytes) : Post (labelled p w) (fun _ d' => DateKept d d') d := by
  unfold labelled
  rw [Post.bind, Post.get, Post.bind, Post.lift]
  rintro ⟨v, r⟩ -
  dsimp only
  rw [Post.ite]
  refine ⟨fun _ => by rw [Post.fail]; trivial, fun _ => ?_⟩
  rw [Post.ite]
  refine ⟨fun _ => by rw [Post.fail]; trivial, fun _ => ?_⟩
  rw [Post.bind]
  suffices Post (labelAssign p d.pType w v r) (fun _ d' => DateKept d d') d from
    this.mono fun _ d' k => by rw [Post.mod]; exact k
  unfold labelAssign
  split
  · rw [Post.mod]; exact .claim rfl (by dsimp only; decide)
  · rw [Post.mod]
    split
    · exact .same rfl rfl rfl rfl rfl rfl (by dsimp only; decide)
    · exact .claim rfl (by dsimp only; decide)
  · rw [Post.mod]; exact .claim rfl (by dsimp only; decide)
  · rw [Post.mod]; exact .same rfl rfl rfl rfl rfl rfl (by dsimp only; decide)
  · rw [Post.mod]; exact .same rfl rfl rfl rfl rfl rfl (by dsimp only; decide)
  · wp
    exact ⟨fun _ _ _ => .same rfl rfl rfl rfl rfl rfl (by dsimp only; decide), fun _ => .same rfl rfl rfl rfl rfl rfl (by dsimp only; decide)⟩
  · unfold labelJulian
    wp
    intro _ a _
    refine ⟨fun _ b _ c _ => .claim rfl (by dsimp only; decide), fun _ => .claim rfl (by dsimp only; decide)⟩
  · rw [Post.bind, Post.get, Post.bind]
    refine (onNum_date (d := d) fun s => numberField_date (or_date h.mask) s).mono fun _ d' k => ?_
    rw [Post.bind, Post.get, Post.ite]
    exact ⟨fun _ => by rw [Post.fail]; trivial, fun _ => by rw [Post.pure]; exact k⟩
  · rw [Post.fail]; trivial

theorem onTime_date (w : Bytes) (d : Dec) : Post (onTime (decodeTime w INTERVAL_FULL_RANGE)) (fun _ d' => DateKept d d') d := by
  unfold onTime
  rw [Post.zoom]
  have tail : ∀ (s : Bytes) (t : TimeS), Post (timeTail s INTERVAL_FULL_RANGE) (fun _ t' => t'.tMask = t.tMask ∧ t'.tm.year = t.tm.year ∧
      t'.tm.mon = t.tm.mon ∧ t'.tm.mday = t.tm.mday) t := by
    intro s t
    unfold timeTail
    split
    · wp
    · wp
      intro _ _
      unfold timeSeconds
      wp
      intro a _
      split
      · wp
      · wp
  suffices ∀ t : TimeS, Post (decodeTime w INTERVAL_FULL_RANGE) (fun _ t' => t'.tMask = 31744 ∧ t'.tm.year = t.tm.year ∧
      t'.tm.mon = t.tm.mon ∧ t'.tm.mday = t.tm.mday) t from
    (this _).mono fun _ t' k => .same rfl k.2.1 k.2.2.1 k.2.2.2 rfl rfl (by dsimp only; rw [k.1]; decide)
  intro t
  unfold decodeTime
  wp
  intro a _
  split
  · wp
    intro b _
    refine (tail _ _).mono fun _ t' k _ => k
  · wp

theorem fieldT_date {s : Dec × Unit} (h : DaySet y m dd s.1) (hi : 0 < i) (f : Field) :
    Post (timeOnlyField p plainLook order ftypes i f) (fun _ s' => DaySet y m dd s'.1) s := by
  have num : Post (numberTokenT p plainLook order ftypes i f.2) (fun _ s' => DateKept s.1 s'.1) s := by
    have hn : Post (onNum (decodeNumberField f.2 (s.1.fMask ||| DTK_DATE_M))) (fun _ d' => DateKept s.1 d') s.1 :=
      onNum_date fun s => numberField_date (or_date h.mask) s
    unfold numberTokenT
    rw [Post.bind, Post.noLook, Post.get, Post.ite, Post.ite, Post.ite, Post.ite, Post.ite]
    refine ⟨fun _ => ?_, fun _ => ⟨fun _ => ⟨fun h0 => absurd h0.1 (by omega), fun _ => ⟨fun _ => ?_, fun _ => by rw [Post.fail]; trivial⟩⟩,
      fun hd => ⟨fun _ => ?_, fun _ => ?_⟩⟩⟩
    · rw [Post.noLook]; exact labelled_date h f.2
    · rw [Post.bind, Post.noLook]; exact hn.mono fun _ _ k => by rw [Post.pure]; exact k
    · rw [Post.bind, Post.noLook]; exact hn.mono fun _ _ k => by rw [Post.pure]; exact k
    · rw [Post.noLook]
      exact onNum_date fun s => number_date (or_date h.mask) (Or.inr (by omega)) s
  have word : Post (wordTokenT plainLook ftypes i f.2) (fun b s' => (b = true → DaySet y m dd s'.1) ∧
      (¬ b = true → Post addMask (fun _ d => DaySet y m dd d) s'.1)) s := by
    unfold wordTokenT
    rw [Post.bind, Post.look]
    dsimp only
    rw [Post.ite]
    refine ⟨fun _ => by rw [Post.pure]; exact ⟨fun _ => h, fun h => absurd rfl h⟩, fun _ => ?_⟩
    rw [Post.bind, Post.noLook]
    suffices ∀ ty v, Post (wordActionT ftypes i ty v) (fun _ d' => DateKept s.1 d') s.1 from
      (this _ _).mono fun _ _ k => by rw [Post.pure]; exact ⟨fun e => (by cases e), fun _ => h.step k⟩
    intro ty v
    unfold wordActionT
    rw [Post.bind, Post.mod]
    split
    · unfold reservedWordT
      wp
      intro a _
      split <;> wp
      exact .same rfl rfl rfl rfl rfl rfl (by dsimp only; decide)
    · rw [Post.mod]; exact .same rfl rfl rfl rfl rfl rfl (by dsimp only; decide)
    · rw [Post.mod]; exact .same rfl rfl rfl rfl rfl rfl (by dsimp only; decide)
    · wp
      exact fun _ _ => .same rfl rfl rfl rfl rfl rfl (by dsimp only; decide)
    · unfold isoTimeWordT
      wp
      split
      · wp
      · wp
        exact fun _ _ _ => .same rfl rfl rfl rfl rfl rfl (by dsimp only; decide)
    · wp
  unfold timeOnlyField
  split
  · unfold dateTokenT
    rw [if_neg (by omega)]
    wp
  · wp
    exact (onTime_date f.2 s.1).mono fun _ d' k => h.step k
  · wp
    exact num.mono fun _ s' k => h.step k
  · wp
    exact word
  · wp
    exact word
  · wp

theorem field_date_kept {s : Dec × Unit} (h : DaySet y m dd s.1) (f : Field) :
    Post (dateTimeField p plainLook order ftypes i f) (fun _ s' => DaySet y m dd s'.1) s := by
  have num : Post (numberToken p plainLook f.2 order) (fun _ s' => DateKept s.1 s'.1) s := by
    have hn : Post (onNum (decodeNumberField f.2 s.1.fMask)) (fun _ d' => DateKept s.1 d') s.1 :=
      onNum_date fun s => numberField_date h.mask s
    unfold numberToken
    rw [Post.bind, Post.noLook, Post.get, Post.ite, Post.ite, Post.ite, Post.ite]
    refine ⟨fun _ => ?_, fun _ => ⟨fun h0 => absurd (h.mask.symm.trans h0.2.1) (by decide), fun h0 => ⟨fun _ => ?_, fun h1 => ⟨fun _ => ?_, fun _ => ?_⟩⟩⟩⟩
    · rw [Post.noLook]; exact labelled_date h f.2
    · rw [Post.bind, Post.noLook]; exact hn.mono fun _ _ k => by rw [Post.pure]; exact k
    · rw [Post.bind, Post.noLook]; exact hn.mono fun _ _ k => by rw [Post.pure]; exact k
    · rw [Post.noLook]
      exact onNum_date fun s => number_date h.mask (by omega) s
  have word : Post (wordToken plainLook ftypes i f.2) (fun b s' => (b = true → DaySet y m dd s'.1) ∧
      (¬ b = true → Post addMask (fun _ d => DaySet y m dd d) s'.1)) s := by
    unfold wordToken
    rw [Post.bind, Post.look]
    dsimp only
    rw [Post.ite]
    refine ⟨fun _ => by rw [Post.pure]; exact ⟨fun _ => h, fun h => absurd rfl h⟩, fun _ => ?_⟩
    rw [Post.bind, Post.noLook]
    suffices ∀ ty v, Post (wordAction ftypes i ty v) (fun _ d' => DateKept s.1 d') s.1 from
      (this _ _).mono fun _ _ k => by rw [Post.pure]; exact ⟨fun e => (by cases e), fun _ => h.step k⟩
    intro ty v
    unfold wordAction
    rw [Post.bind, Post.mod]
    split
    · unfold reservedWord
      wp
      intro a _
      split <;> wp
      all_goals exact .same rfl rfl rfl rfl rfl rfl (by dsimp only; decide)
    · unfold monthWord
      rw [Post.mod]
      dsimp only
      split <;> exact .claim rfl (by dsimp only; decide)
    · rw [Post.mod]; exact .same rfl rfl rfl rfl rfl rfl (by dsimp only; decide)
    · rw [Post.mod]; exact .same rfl rfl rfl rfl rfl rfl (by dsimp only; decide)
    · rw [Post.mod]; exact .same rfl rfl rfl rfl rfl rfl (by dsimp only; decide)
    · wp
      exact fun _ _ => .same rfl rfl rfl rfl rfl rfl (by dsimp only; decide)
    · unfold isoTimeWord
      wp
      intro _
      split
      · wp
      · wp
        exact fun _ _ _ => .same rfl rfl rfl rfl rfl rfl (by dsimp only; decide)
    · wp
  have date : Post (dateToken p plainLook f.2 order) (fun _ s' => DateKept s.1 s'.1) s := by
    have hmd : s.1.fMask &&& DTK_MONTH_DAY_M = DTK_MONTH_DAY_M := by
      have e : (14 : Nat) &&& 10 = 10 := by decide
      show s.1.fMask &&& 10 = 10
      rw [← e, ← Nat.and_assoc, h.mask]
    have keep : DateKept s.1 s.1 := .same rfl rfl rfl rfl rfl rfl h.doy'
    unfold dateToken
    rw [Post.bind, Post.noLook, Post.get, Post.ite, Post.ite]
    refine ⟨fun _ => by wp, fun _ => ⟨fun _ => ?_, fun hn => absurd (Or.inr hmd) hn⟩⟩
    split
    · rw [Post.pure]; exact keep
    · wp
      exact fun _ _ => keep
  have time : Post (timeToken f.2) (fun _ d' => DateKept s.1 d') s.1 := by
    unfold timeToken
    wp
    intro _
    refine (onTime_date f.2 _).mono fun _ d' k _ => k
  unfold dateTimeField
  split
  · wp
    exact date.mono fun _ s' k => h.step k
  · wp
    exact time.mono fun _ d' k => h.step k
  · wp
    exact num.mono fun _ s' k => h.step k
  · wp
    exact word
  · wp
    exact word
  · wp

/-! ## The mark BC -/

theorem labelled_bc (w : Bytes) (d : Dec) : Post (labelled p w) (fun _ d' => d'.bc = d.bc) d := by
  have num : ∀ m : St NumS TokenField, Post (onNum m) (fun _ d' => d'.bc = d.bc) d := by
    intro m
    unfold onNum
    rw [Post.zoom]
    exact Post.any fun _ _ => rfl
  unfold labelled
  rw [Post.bind, Post.get, Post.bind, Post.lift]
  rintro ⟨v, r⟩ -
  dsimp only
  rw [Post.ite]
  refine ⟨fun _ => by rw [Post.fail]; trivial, fun _ => ?_⟩
  rw [Post.ite]
  refine ⟨fun _ => by rw [Post.fail]; trivial, fun _ => ?_⟩
  rw [Post.bind]
  suffices Post (labelAssign p d.pType w v r) (fun _ d' => d'.bc = d.bc) d from
    this.mono fun _ d' k => by rw [Post.mod]; exact k
  unfold labelAssign
  split
  · rw [Post.mod]
  · rw [Post.mod]
    split <;> rfl
  · rw [Post.mod]
  · rw [Post.mod]
  · rw [Post.mod]
  · wp
  · unfold labelJulian
    wp
  · rw [Post.bind, Post.get, Post.bind]
    refine (num _).mono fun _ d' k => ?_
    rw [Post.bind, Post.get, Post.ite]
    exact ⟨fun _ => by rw [Post.fail]; trivial, fun _ => by rw [Post.pure]; exact k⟩
  · rw [Post.fail]; trivial

/-- The era is BC only if a word of the text says so. -/
theorem field_bc_said {t : Bytes} {f : Field} (hf : WordAt t f) (s : Dec × Unit) (hs : s.1.bc = true → Says [b!"bc"] t) :
    Post (dateTimeField p plainLook order ftypes i f) (fun _ s' => s'.1.bc = true → Says [b!"bc"] t) s := by
  have add : ∀ d : Dec, (d.bc = true → Says [b!"bc"] t) → Post addMask (fun _ d' => d'.bc = true → Says [b!"bc"] t) d := by
    intro d h
    rw [addMask_post]
    exact fun _ => h
  have date : ∀ w, Post (decodeDate plainLook w order) (fun _ s' => s'.1.bc = s.1.bc) s := by
    intro w
    unfold decodeDate
    rw [Post.zoom]
    exact Post.any fun _ _ => rfl
  have num : ∀ {α : Type} (m : St NumS α), Post (onNum m) (fun _ d' => d'.bc = s.1.bc) s.1 := by
    intro α m
    unfold onNum
    rw [Post.zoom]
    exact Post.any fun _ _ => rfl
  have word : f.1 = .string ∨ f.1 = .special → Post (wordToken plainLook ftypes i f.2) (fun b s' => (b = true → s'.1.bc = true → Says [b!"bc"] t) ∧
      (¬ b = true → Post addMask (fun _ d => d.bc = true → Says [b!"bc"] t) s'.1)) s := by
    intro hw
    unfold wordToken
    rw [Post.bind, Post.look]
    dsimp only
    rw [Post.ite]
    refine ⟨fun _ => by rw [Post.pure]; exact ⟨fun _ => hs, fun h => absurd rfl h⟩, fun _ => ?_⟩
    rw [Post.bind, Post.noLook]
    suffices ∀ ty v, tokenResult (lookupIn dateTable f.2) = (ty, v) → Post (wordAction ftypes i ty v)
        (fun _ d' => d'.bc = true → Says [b!"bc"] t) s.1 from
      (this _ _ rfl).mono fun _ _ k => by rw [Post.pure]; exact ⟨fun e => (by cases e), fun _ => add _ k⟩
    intro ty v he
    unfold wordAction
    rw [Post.bind, Post.mod]
    split
    · unfold reservedWord
      wp
      intro a _
      split <;> wp
      all_goals exact hs
    · unfold monthWord
      rw [Post.mod]
      dsimp only
      split <;> exact hs
    · rw [Post.mod]; exact hs
    · rw [Post.mod]
      intro hb
      have hb : v = 1 := by simpa using hb
      subst hb
      exact said_word (ty := .adbc) (v := 1) ⟨hw, he, by decide⟩ hf (by decide +kernel) (by decide) (by decide)
    · rw [Post.mod]; exact hs
    · wp
      exact fun _ _ => hs
    · unfold isoTimeWord
      wp
      intro _
      split
      · wp
      · wp
        exact fun _ _ _ => hs
    · wp
  have keep : ∀ d : Dec, d.bc = s.1.bc → Post addMask (fun _ d' => d'.bc = true → Says [b!"bc"] t) d :=
    fun d h => add d (by rw [h]; exact hs)
  unfold dateTimeField
  split
  · rw [Post.bind]
    suffices Post (dateToken p plainLook f.2 order) (fun _ s' => s'.1.bc = s.1.bc) s from
      this.mono fun _ s' k => by rw [Post.noLook]; exact keep _ k
    unfold dateToken
    wp
    intro _
    refine ⟨fun _ => ?_, fun _ => date f.2⟩
    split
    · rw [Post.pure]
    · wp
  · rw [Post.bind, Post.noLook]
    suffices Post (timeToken f.2) (fun _ d' => d'.bc = s.1.bc) s.1 from this.mono fun _ d' k => by rw [Post.noLook]; exact keep _ k
    unfold timeToken onTime
    wp
    intro _
    rw [Post.zoom]
    exact Post.any fun _ _ _ => rfl
  · rw [Post.bind]
    suffices Post (numberToken p plainLook f.2 order) (fun _ s' => s'.1.bc = s.1.bc) s from
      this.mono fun _ s' k => by rw [Post.noLook]; exact keep _ k
    unfold numberToken
    wp
    exact ⟨fun _ => labelled_bc f.2 s.1, fun _ => ⟨fun _ => date f.2, fun _ => ⟨fun _ => num _, fun _ => ⟨fun _ => num _, fun _ => num _⟩⟩⟩⟩
  · rename_i e
    wp
    exact word (Or.inl e)
  · rename_i e
    wp
    exact word (Or.inr e)
  · wp

/-! ## The result -/

/-- The fields after the last one. -/
theorem finish_day {y : Bytes} {m d : Int} {s : Dec} (h : DaySet y m d s) (hy : Digits y) (hk : NumOk y) :
    Post (finishFields p) (fun _ s' => ∃ day, namedDay y m d s.bc = some day ∧ s'.tm.year = day.y ∧ s'.tm.mon = day.m ∧
      s'.tm.mday = day.d ∧ s'.bc = s.bc) s := by
  unfold finishFields
  rw [Post.bind, Post.get, Post.bind, Post.lift]
  intro tm htm
  rw [h.julian, validateDate_gen p s.tm s.is2 s.bc h.mask h.doy (by rw [h.year]; have := hk.2; omega), h.year, h.is2, yearOf_eq hy, h.mon,
    h.day] at htm
  have fin : ∃ day, namedDay y m d s.bc = some day ∧ tm.year = day.y ∧ tm.mon = day.m ∧ tm.mday = day.d := by
    unfold namedDay
    cases hi : inputYear y s.bc with
    | none => simp only [hi] at htm; cases htm
    | some yy =>
      simp only [hi] at htm ⊢
      by_cases hr : (⟨yy, m, d⟩ : YMD).Real
      · rw [if_pos hr] at htm ⊢
        cases htm
        exact ⟨_, rfl, rfl, rfl, rfl⟩
      · rw [if_neg hr] at htm; cases htm
  obtain ⟨day, f1, f2, f3, f4⟩ := fin
  wp
  intro _
  exact ⟨fun _ => ⟨day, f1, f2, f3, f4⟩, fun _ => ⟨fun _ _ _ => ⟨day, f1, f2, f3, f4⟩, fun _ => ⟨day, f1, f2, f3, f4⟩⟩⟩

/-- What is known after a text that starts with a date. -/
def FirstDay (order : DateOrder) (a b c t : Bytes) (s : Dec) : Prop :=
  ∃ bc day, bc = s.bc ∧ (bc = true → Says [b!"bc"] t) ∧ inputDay order a b c bc = some day ∧ s.tm.year = day.y ∧ s.tm.mon = day.m ∧ s.tm.mday = day.d

theorem decode_first {a b c t : Bytes} {u : TokenField} (h : StartsWithDate a b c t) {l : List Field} (hs : scan u t = .ok l) :
    Post (decodeDateTime p plainLook order l) (fun _ s => FirstDay order a b c t s.1) ({}, ()) := by
  have hw := scan_wordAt hs
  obtain ⟨d, l', hd, rfl⟩ := scan_first h hs
  obtain ⟨-, -, -, -, -, -, -, ⟨ha, na⟩, ⟨hb, nb⟩, ⟨hc, nc⟩, h3, -⟩ := h
  obtain ⟨n, hn⟩ : ∃ n, assign3 order (decide (3 ≤ a.length)) a b c = n := ⟨_, rfl⟩
  unfold decodeDateTime
  rw [Post.bind]
  have loop : Post (dateTimeLoop p plainLook order (((TokenField.date, a ++ d :: (b ++ d :: c)) :: l').map Prod.fst)
      ((.date, a ++ d :: (b ++ d :: c)) :: l') 0)
      (fun _ s => NumOk n.1 ∧ DaySet n.1 (value n.2.1) (value n.2.2) s.1 ∧ (s.1.bc = true → Says [b!"bc"] t)) ({}, ()) := by
    rw [dateTimeLoop, Post.bind]
    intro _ s1 hs1
    have hf := field_date (p := p) (order := order) (ft := ((TokenField.date, a ++ d :: (b ++ d :: c)) :: l').map Prod.fst) (i := 0)
      (d := {}) hd hd ha na hb nb hc nc (fun _ => h3) rfl rfl hn
    by_cases hk : NumOk a ∧ NumOk b ∧ NumOk c
    · rw [if_pos hk, hs1] at hf
      cases hf
      have hk' := (assign3_all (order := order) (y := decide (3 ≤ a.length)) (P := NumOk)).1 hk
      rw [hn] at hk'
      refine (loop_all (I := fun s => NumOk n.1 ∧ DaySet n.1 (value n.2.1) (value n.2.2) s ∧ (s.bc = true → Says [b!"bc"] t)) (G := WordAt t)
        (fun ft i f s hf hI => ?_) l' _ _ _ (fun f hf => hw f (by simp [hf])) ⟨hk'.1, ⟨by dsimp only; decide, by dsimp only; decide, by dsimp only; decide, rfl, rfl, rfl, rfl, rfl⟩,
          fun h => by cases h⟩)
      exact ((field_date_kept hI.2.1 f).and (field_bc_said hf s hI.2.2)).mono fun _ _ k => ⟨hI.1, k⟩
    · rw [if_neg hk, hs1] at hf
      obtain ⟨_, hf⟩ := hf
      cases hf
  refine loop.mono fun _ s hs' => ?_
  rw [Post.bind, Post.noLook]
  refine (finish_day hs'.2.1 (by rw [← hn]; exact assign3_digits ha hc) hs'.1).mono fun _ s' k => ?_
  obtain ⟨day, k1, k2, k3, k4, k5⟩ := k
  wp
  intro _
  exact ⟨_, day, k5.symm, hs'.2.2, by unfold inputDay; dsimp only; rw [hn]; exact k1, k2, k3, k4⟩

theorem decode_firstT {a b c t : Bytes} {u : TokenField} (h : StartsWithDate a b c t) {l : List Field} (hs : scan u t = .ok l) :
    Post (decodeTimeOnly p plainLook order l) (fun _ _ => ∃ bc day, inputDay order a b c bc = some day) ({}, ()) := by
  obtain ⟨d, l', hd, rfl⟩ := scan_first h hs
  obtain ⟨-, -, -, -, -, -, -, ⟨ha, na⟩, ⟨hb, nb⟩, ⟨hc, nc⟩, h3, -⟩ := h
  obtain ⟨n, hn⟩ : ∃ n, assign3 order (decide (3 ≤ a.length)) a b c = n := ⟨_, rfl⟩
  unfold decodeTimeOnly
  rw [Post.bind]
  have rest : ∀ (ft : List TokenField) (l : List Field) (i : Nat) (s : Dec × Unit), 0 < i → DaySet n.1 (value n.2.1) (value n.2.2) s.1 →
      Post (timeOnlyLoop p plainLook order ft l i) (fun _ s => DaySet n.1 (value n.2.1) (value n.2.2) s.1) s := by
    intro ft l
    induction l with
    | nil => intro i s _ h; rw [timeOnlyLoop, Post.pure]; exact h
    | cons f l ih =>
      intro i s hi h
      rw [timeOnlyLoop, Post.bind]
      exact (fieldT_date h hi f).mono fun _ s' h' => ih _ _ (by omega) h'
  have loop : Post (timeOnlyLoop p plainLook order (((TokenField.date, a ++ d :: (b ++ d :: c)) :: l').map Prod.fst)
      ((.date, a ++ d :: (b ++ d :: c)) :: l') 0)
      (fun _ s => NumOk n.1 ∧ DaySet n.1 (value n.2.1) (value n.2.2) s.1) ({}, ()) := by
    rw [timeOnlyLoop, Post.bind]
    unfold timeOnlyField dateTokenT
    dsimp only
    rw [Post.bind, Post.ite]
    refine ⟨fun _ => ?_, fun _ => by rw [Post.fail]; trivial⟩
    intro _ s1 hs1
    have hf := decodeDate_three order hd hd ha na hb nb hc nc (fun _ => h3) {} rfl hn
    by_cases hk : NumOk a ∧ NumOk b ∧ NumOk c
    · rw [if_pos hk, hs1] at hf
      cases hf
      have hk' := (assign3_all (order := order) (y := decide (3 ≤ a.length)) (P := NumOk)).1 hk
      rw [hn] at hk'
      rw [Post.noLook, addMask_post]
      intro _
      exact (rest _ l' _ _ (by omega) ⟨by dsimp only; decide, by dsimp only; decide, by dsimp only; decide, rfl, rfl, rfl, rfl, rfl⟩).mono fun _ _ k => ⟨hk'.1, k⟩
    · rw [if_neg hk, hs1] at hf
      obtain ⟨_, hf⟩ := hf
      cases hf
  refine loop.mono fun _ s hs' => ?_
  rw [Post.bind, Post.noLook]
  refine (finish_day hs'.2 (by rw [← hn]; exact assign3_digits ha hc) hs'.1).mono fun _ s' k => ?_
  obtain ⟨day, k1, -⟩ := k
  wp
  intro _
  exact ⟨_, day, by unfold inputDay; dsimp only; rw [hn]; exact k1⟩

end Pg
