import Verif.Lemmas.Twice
import Verif.Lemmas.CacheSim

/-!
# Property C63: no part of a date or time may be given twice

A text with two clock times, two dates, two month names, two weekday names, two of `am` and `pm`, or two of `ad` and `bc` is
not accepted, whatever else it contains. `c` is the state of the thread's keyword caches, `u` the uninitialised type of a
lone sign.
-/

namespace Pg
open Spec

/-- The parts of a date or timestamp. -/
theorem decode_twice {p : Profile} {order : DateOrder} {k : Mark} {f g : Field} (hf : Mark.Field k f) (hg : Mark.Field k g)
    (l1 l2 l3 : List Field) (c : Unit) :
    Post (decodeDateTime p plainLook order (l1 ++ f :: (l2 ++ g :: l3))) (fun _ _ => False) ({}, c) := by
  unfold decodeDateTime
  rw [Post.bind]
  suffices ∀ ft, Post (dateTimeLoop p plainLook order ft (l1 ++ f :: (l2 ++ g :: l3)) 0) (fun _ _ => False) ({}, c) from
    (this _).mono fun _ _ h => h.elim
  intro ft
  have any : ∀ {m : St (Dec × Unit) Unit} {s}, Post m (fun _ _ => True) s := fun {_ _} _ _ _ => trivial
  have bit : ∀ n, (∀ ft i f s, (fun d : Dec => d.fMask.testBit n = true) s.1 →
      Post (dateTimeField p plainLook order ft i f) (fun _ s' => s'.1.fMask.testBit n = true) s) := fun n ft i f s h =>
    (field_mask f s).mono fun _ _ h' => h'.1 n h
  have go := @loop_twice (fun ft i f => dateTimeField p plainLook order ft i f) (fun ft l i => dateTimeLoop p plainLook order ft l i)
    (fun _ _ _ _ => rfl)
  obtain ⟨f1, f2⟩ := f
  obtain ⟨g1, g2⟩ := g
  cases k with
  | clock =>
    obtain rfl : f1 = .time := hf
    obtain rfl : g1 = .time := hg
    exact go (I0 := fun _ => True) (I := fun d => d.fMask.testBit 10 = true) (fun _ _ _ _ _ => any) (bit 10) (fun _ _ s _ => (clock_claims f2 s).mono fun _ _ h => h.1)
      (fun _ _ s _ h => (clock_claims g2 s).mono fun _ _ h' => by rw [h'.2] at h; cases h) _ _ _ _ _ _ trivial
  | date =>
    obtain ⟨rfl, hn⟩ : f1 = .date ∧ f2 ≠ [] := hf
    obtain ⟨rfl, hn'⟩ : g1 = .date ∧ g2 ≠ [] := hg
    obtain ⟨x, r, rfl⟩ := List.exists_cons_of_ne_nil hn
    obtain ⟨x', r', rfl⟩ := List.exists_cons_of_ne_nil hn'
    refine go (I0 := Added) (I := fun d => Added d ∧ d.fMask &&& 14 = 14) (fun _ _ f s h => field_added f s h)
      (fun _ _ f s h => ((field_added f s h.1).and (field_mask f s)).mono fun _ _ h' => ⟨h'.1, bits_and h'.2.1 h.2⟩)
      (fun _ _ s h => ((field_added _ s h).and (date_claims rfl s h)).mono fun _ _ h => ⟨h.1, h.2.1⟩)
      (fun _ _ s _ h => (date_claims rfl s h.1).mono fun _ _ h' => h'.2 h.2) _ _ _ _ _ _ ?_
    exact ⟨Bits.refl _, fun _ => Or.inr rfl⟩
  | month =>
    obtain ⟨rfl, v, hv⟩ : f1 = .string ∧ ∃ v, tokenResult (lookupIn dateTable f2) = (.month, v) := hf
    obtain ⟨rfl, v', hv'⟩ : g1 = .string ∧ ∃ v, tokenResult (lookupIn dateTable g2) = (.month, v) := hg
    exact go (I0 := fun _ => True) (I := MonthSeen) (fun _ _ _ _ _ => any)
      (fun _ _ f s h => (field_mask f s).mono fun _ _ h' => ⟨h'.1 1 h.1, h'.2 h.2⟩)
      (fun _ _ s _ => (month_claims hv s).mono fun _ _ h => h.1)
      (fun _ _ s _ h => (month_claims hv' s).mono fun _ _ h' => h'.2 h) _ _ _ _ _ _ trivial
  | weekday =>
    obtain ⟨rfl, v, hv⟩ : f1 = .string ∧ ∃ v, tokenResult (lookupIn dateTable f2) = (.dow, v) := hf
    obtain ⟨rfl, v', hv'⟩ : g1 = .string ∧ ∃ v, tokenResult (lookupIn dateTable g2) = (.dow, v) := hg
    exact go (I0 := fun _ => True) (I := fun d => d.fMask.testBit TokenType.dow.code = true) (fun _ _ _ _ _ => any) (bit _)
      (fun _ _ s _ => (word_claims hv (Or.inr (Or.inr rfl)) s).mono fun _ _ h => h.1)
      (fun _ _ s _ h => (word_claims hv' (Or.inr (Or.inr rfl)) s).mono fun _ _ h' => by rw [h'.2] at h; cases h)
      _ _ _ _ _ _ trivial
  | meridiem =>
    obtain ⟨rfl, v, hv⟩ : f1 = .string ∧ ∃ v, tokenResult (lookupIn dateTable f2) = (.ampm, v) := hf
    obtain ⟨rfl, v', hv'⟩ : g1 = .string ∧ ∃ v, tokenResult (lookupIn dateTable g2) = (.ampm, v) := hg
    exact go (I0 := fun _ => True) (I := fun d => d.fMask.testBit TokenType.ampm.code = true) (fun _ _ _ _ _ => any) (bit _)
      (fun _ _ s _ => (word_claims hv (Or.inl rfl) s).mono fun _ _ h => h.1)
      (fun _ _ s _ h => (word_claims hv' (Or.inl rfl) s).mono fun _ _ h' => by rw [h'.2] at h; cases h)
      _ _ _ _ _ _ trivial
  | era =>
    obtain ⟨rfl, v, hv⟩ : f1 = .string ∧ ∃ v, tokenResult (lookupIn dateTable f2) = (.adbc, v) := hf
    obtain ⟨rfl, v', hv'⟩ : g1 = .string ∧ ∃ v, tokenResult (lookupIn dateTable g2) = (.adbc, v) := hg
    exact go (I0 := fun _ => True) (I := fun d => d.fMask.testBit TokenType.adbc.code = true) (fun _ _ _ _ _ => any) (bit _)
      (fun _ _ s _ => (word_claims hv (Or.inr (Or.inl rfl)) s).mono fun _ _ h => h.1)
      (fun _ _ s _ h => (word_claims hv' (Or.inr (Or.inl rfl)) s).mono fun _ _ h' => by rw [h'.2] at h; cases h)
      _ _ _ _ _ _ trivial

/-- The parts of a time. -/
theorem decode_twiceT {p : Profile} {order : DateOrder} {k : Mark} {f g : Field} (hf : Mark.Field k f) (hg : Mark.Field k g)
    (l1 l2 l3 : List Field) (c : Unit) :
    Post (decodeTimeOnly p plainLook order (l1 ++ f :: (l2 ++ g :: l3))) (fun _ _ => False) ({}, c) := by
  unfold decodeTimeOnly
  rw [Post.bind]
  suffices ∀ ft, Post (timeOnlyLoop p plainLook order ft (l1 ++ f :: (l2 ++ g :: l3)) 0) (fun _ _ => False) ({}, c) from
    (this _).mono fun _ _ h => h.elim
  intro ft
  have any : ∀ {m : St (Dec × Unit) Unit} {s}, Post m (fun _ _ => True) s := fun {_ _} _ _ _ => trivial
  have bit : ∀ n, (∀ ft i f s, (fun d : Dec => d.fMask.testBit n = true) s.1 →
      Post (timeOnlyField p plainLook order ft i f) (fun _ s' => s'.1.fMask.testBit n = true) s) := fun n ft i f s h =>
    (field_maskT f s).mono fun _ _ h' => h' n h
  have go := @loop_twice (fun ft i f => timeOnlyField p plainLook order ft i f) (fun ft l i => timeOnlyLoop p plainLook order ft l i)
    (fun _ _ _ _ => rfl)
  obtain ⟨f1, f2⟩ := f
  obtain ⟨g1, g2⟩ := g
  cases k with
  | clock =>
    obtain rfl : f1 = .time := hf
    obtain rfl : g1 = .time := hg
    exact go (I0 := fun _ => True) (I := fun d => d.fMask.testBit 10 = true) (fun _ _ _ _ _ => any) (bit 10) (fun _ _ s _ => (clock_claimsT f2 s).mono fun _ _ h => h.1)
      (fun _ _ s _ h => (clock_claimsT g2 s).mono fun _ _ h' => by rw [h'.2] at h; cases h) _ _ _ _ _ _ trivial
  | date =>
    obtain ⟨rfl, hn⟩ : f1 = .date ∧ f2 ≠ [] := hf
    obtain ⟨rfl, hn'⟩ : g1 = .date ∧ g2 ≠ [] := hg
    exact go (I0 := fun _ => True) (I := fun _ => True) (fun _ _ _ _ _ => any) (fun _ _ _ _ _ => any) (fun _ _ _ _ => any)
      (fun _ _ s hi _ => date_refusedT s hi) _ _ _ _ _ _ trivial
  | month =>
    obtain ⟨rfl, v, hv⟩ : f1 = .string ∧ ∃ v, tokenResult (lookupIn dateTable f2) = (.month, v) := hf
    obtain ⟨rfl, v', hv'⟩ : g1 = .string ∧ ∃ v, tokenResult (lookupIn dateTable g2) = (.month, v) := hg
    exact go (I0 := fun _ => True) (I := fun _ => True) (fun _ _ _ _ _ => any) (fun _ _ _ _ _ => any) (fun _ _ _ _ => any)
      (fun _ _ s _ _ => word_refusedT hv' (Or.inl rfl) s) _ _ _ _ _ _ trivial
  | weekday =>
    obtain ⟨rfl, v, hv⟩ : f1 = .string ∧ ∃ v, tokenResult (lookupIn dateTable f2) = (.dow, v) := hf
    obtain ⟨rfl, v', hv'⟩ : g1 = .string ∧ ∃ v, tokenResult (lookupIn dateTable g2) = (.dow, v) := hg
    exact go (I0 := fun _ => True) (I := fun _ => True) (fun _ _ _ _ _ => any) (fun _ _ _ _ _ => any) (fun _ _ _ _ => any)
      (fun _ _ s _ _ => word_refusedT hv' (Or.inr rfl) s) _ _ _ _ _ _ trivial
  | meridiem =>
    obtain ⟨rfl, v, hv⟩ : f1 = .string ∧ ∃ v, tokenResult (lookupIn dateTable f2) = (.ampm, v) := hf
    obtain ⟨rfl, v', hv'⟩ : g1 = .string ∧ ∃ v, tokenResult (lookupIn dateTable g2) = (.ampm, v) := hg
    exact go (I0 := fun _ => True) (I := fun d => d.fMask.testBit TokenType.ampm.code = true) (fun _ _ _ _ _ => any) (bit _)
      (fun _ _ s _ => (word_claimsT hv (Or.inl rfl) s).mono fun _ _ h => h.1)
      (fun _ _ s _ h => (word_claimsT hv' (Or.inl rfl) s).mono fun _ _ h' => by rw [h'.2] at h; cases h)
      _ _ _ _ _ _ trivial
  | era =>
    obtain ⟨rfl, v, hv⟩ : f1 = .string ∧ ∃ v, tokenResult (lookupIn dateTable f2) = (.adbc, v) := hf
    obtain ⟨rfl, v', hv'⟩ : g1 = .string ∧ ∃ v, tokenResult (lookupIn dateTable g2) = (.adbc, v) := hg
    exact go (I0 := fun _ => True) (I := fun d => d.fMask.testBit TokenType.adbc.code = true) (fun _ _ _ _ _ => any) (bit _)
      (fun _ _ s _ => (word_claimsT hv (Or.inr rfl) s).mono fun _ _ h => h.1)
      (fun _ _ s _ h => (word_claimsT hv' (Or.inr rfl) s).mono fun _ _ h' => by rw [h'.2] at h; cases h)
      _ _ _ _ _ _ trivial

/-- Two month names in one word of a date or timestamp. -/
theorem decode_months {p : Profile} {order : DateOrder} {x : Bytes} (hx : TwoMonths x) (hl : x.length ≤ 25) (hn : x ≠ [])
    (l1 l2 : List Field) (c : Unit) :
    Post (decodeDateTime p plainLook order (l1 ++ (.date, x) :: l2)) (fun _ _ => False) ({}, c) := by
  unfold decodeDateTime
  rw [Post.bind]
  suffices ∀ ft, Post (dateTimeLoop p plainLook order ft (l1 ++ (.date, x) :: l2) 0) (fun _ _ => False) ({}, c) from
    (this _).mono fun _ _ h => h.elim
  intro ft
  obtain ⟨b, r, e⟩ := List.exists_cons_of_ne_nil hn
  refine loop_never (F := fun ft i f => dateTimeField p plainLook order ft i f) (loop := fun ft l i => dateTimeLoop p plainLook order ft l i)
    (fun _ _ _ _ => rfl) (I := Added) (fun _ _ f s h => field_added f s h)
    (fun _ _ s h => date_field_never e s h (decodeDate_months hx hl order s)) _ _ _ _ _ ?_
  exact ⟨Bits.refl _, fun _ => Or.inr rfl⟩

/-- Two month names in one word of a time. -/
theorem decode_monthsT {p : Profile} {order : DateOrder} {x : Bytes} (hx : TwoMonths x) (hl : x.length ≤ 25)
    (l1 l2 : List Field) (c : Unit) :
    Post (decodeTimeOnly p plainLook order (l1 ++ (.date, x) :: l2)) (fun _ _ => False) ({}, c) := by
  unfold decodeTimeOnly
  rw [Post.bind]
  suffices ∀ ft, Post (timeOnlyLoop p plainLook order ft (l1 ++ (.date, x) :: l2) 0) (fun _ _ => False) ({}, c) from
    (this _).mono fun _ _ h => h.elim
  intro ft
  refine loop_never (F := fun ft i f => timeOnlyField p plainLook order ft i f) (loop := fun ft l i => timeOnlyLoop p plainLook order ft l i)
    (fun _ _ _ _ => rfl) (I := fun _ => True) (fun _ _ f s h => fun _ _ _ => trivial) (fun _ _ s h => ?_) _ _ _ _ _ trivial
  unfold timeOnlyField dateTokenT
  wp
  exact fun _ => (decodeDate_months hx hl order s).mono fun _ _ h => h.elim

/-- A decoder that never succeeds on the scanned fields. -/
theorem never_ok {α : Type} {u : TokenField} {s : Bytes} {m : List Field → St (Dec × Unit) Unit} {f : Dec → St Unit α}
    (h : ∀ l, scan u s = .ok l → Post (m l) (fun _ _ => False) ({}, ())) (v : α) :
    ((do let l ← St.lift (scan u s); let (_, d) ← runLocal {} (m l); f d : St Unit α) ()).1 ≠ .ok v := by
  intro e
  obtain ⟨w, hw⟩ : ∃ w, (do let l ← St.lift (scan u s); let (_, d) ← runLocal {} (m l); f d : St Unit α) () = (.ok v, w) :=
    ⟨_, Prod.ext e rfl⟩
  have : Post (do let l ← St.lift (scan u s); let (_, d) ← runLocal {} (m l); f d : St Unit α) (fun _ _ => False) () := by
    rw [Post.bind, Post.lift]
    intro l hl
    rw [Post.bind]
    intro a s' ha
    have := h l hl
    unfold runLocal at ha
    split at ha
    · rename_i hm
      exact (this _ _ hm).elim
    · cases ha
    · cases ha
  exact this _ _ hw

end Pg

namespace Props
open Pg Spec

/-- **C63, dates.** -/
theorem C63_date (p : Profile) (u : TokenField) (c : Caches) (hc : c.Ok) (order : DateOrder) (k : Mark) (s : Bytes)
    (h : Twice k s) (v : Date) : Date.tryFromStr p u c s order ≠ .ok v := by
  unfold Date.tryFromStr
  rw [(same_date p u order s c hc).1]
  refine never_ok (m := decodeDateTime p plainLook order) (f := fun d => St.lift (Date.ofDec p d)) ?_ v
  intro l hl
  obtain ⟨l1, f, l2, g, l3, rfl, hf, hg⟩ := scan_twice h hl
  exact decode_twice hf hg l1 l2 l3 ()

/-- **C63, timestamps.** -/
theorem C63_timestamp (p : Profile) (u : TokenField) (c : Caches) (hc : c.Ok) (typmod : Int) (order : DateOrder) (k : Mark)
    (s : Bytes) (h : Twice k s) (v : Timestamp) : Timestamp.tryFromStr p u c s typmod order ≠ .ok v := by
  unfold Timestamp.tryFromStr
  rw [(same_timestamp p u typmod order s c hc).1]
  refine never_ok (m := decodeDateTime p plainLook order)
    (f := fun d => do let t ← St.lift (Timestamp.ofDec p d); St.lift (t.adjustByTypmod p typmod)) ?_ v
  intro l hl
  obtain ⟨l1, f, l2, g, l3, rfl, hf, hg⟩ := scan_twice h hl
  exact decode_twice hf hg l1 l2 l3 ()

/-- **C63, times.** -/
theorem C63_time (p : Profile) (u : TokenField) (c : Caches) (hc : c.Ok) (typmod : Int) (order : DateOrder) (k : Mark)
    (s : Bytes) (h : Twice k s) (v : Time) : Time.tryFromStr p u c s typmod order ≠ .ok v := by
  unfold Time.tryFromStr
  rw [(same_time p u typmod order s c hc).1]
  refine never_ok (m := decodeTimeOnly p plainLook order)
    (f := fun d => do let t ← St.lift (Time.fromPgtime p d.tm d.fSec); St.lift (t.adjustByTypmod p typmod)) ?_ v
  intro l hl
  obtain ⟨l1, f, l2, g, l3, rfl, hf, hg⟩ := scan_twice h hl
  exact decode_twiceT hf hg l1 l2 l3 ()

/-- **C63, month names in one word.** A word that is a date and contains two month names (in small letters, each a whole run
of letters) is never accepted, as part of any text: not by dates, timestamps or times. -/
theorem C63_months (p : Profile) (u : TokenField) (c : Caches) (hc : c.Ok) (typmod : Int) (order : DateOrder) (s x : Bytes)
    (l1 l2 : List Bytes) (hw : words s = l1 ++ x :: l2) (hs : ∀ w ∈ l1, ¬ EndsInSign w) (hx : JoinedDate x) (hm : TwoMonths x)
    (hl : x.length ≤ 25) (hu : ∀ b ∈ x, ¬ (65 ≤ b ∧ b ≤ 90)) :
    (∀ v, Date.tryFromStr p u c s order ≠ .ok v) ∧ (∀ v, Timestamp.tryFromStr p u c s typmod order ≠ .ok v) ∧
    ∀ v, Time.tryFromStr p u c s typmod order ≠ .ok v := by
  have hn : NoUpper x := fun b hb => (isUpper_false b).2 (by have := hu b hb; omega)
  have hne : x ≠ [] := by
    obtain ⟨b, r, _, e, _⟩ := joined_scan u hx (c := []) (Or.inl rfl)
    rw [e]; simp
  refine ⟨fun v => ?_, fun v => ?_, fun v => ?_⟩
  · unfold Date.tryFromStr
    rw [(same_date p u order s c hc).1]
    refine never_ok (m := decodeDateTime p plainLook order) (f := fun d => St.lift (Date.ofDec p d)) ?_ v
    intro l hl'
    obtain ⟨m1, m2, rfl⟩ := scan_date_word hw hs hx hn hl'
    exact decode_months hm hl hne m1 m2 ()
  · unfold Timestamp.tryFromStr
    rw [(same_timestamp p u typmod order s c hc).1]
    refine never_ok (m := decodeDateTime p plainLook order)
      (f := fun d => do let t ← St.lift (Timestamp.ofDec p d); St.lift (t.adjustByTypmod p typmod)) ?_ v
    intro l hl'
    obtain ⟨m1, m2, rfl⟩ := scan_date_word hw hs hx hn hl'
    exact decode_months hm hl hne m1 m2 ()
  · unfold Time.tryFromStr
    rw [(same_time p u typmod order s c hc).1]
    refine never_ok (m := decodeTimeOnly p plainLook order)
      (f := fun d => do let t ← St.lift (Time.fromPgtime p d.tm d.fSec); St.lift (t.adjustByTypmod p typmod)) ?_ v
    intro l hl'
    obtain ⟨m1, m2, rfl⟩ := scan_date_word hw hs hx hn hl'
    exact decode_monthsT hm hl m1 m2 ()

/-! ## Cases -/

/-- Two clock times; without the second one the text is a timestamp. -/
example : Twice .clock b!"2024-01-02 10:00 11:00" :=
  ⟨[b!"2024-01-02"], b!"10:00", [], b!"11:00", [], by decide,
    ⟨b!"10", b!"00", by decide, by decide, by unfold Digits; decide, by unfold Digit; decide⟩,
    ⟨b!"11", b!"00", by decide, by decide, by unfold Digits; decide, by unfold Digit; decide⟩,
    by unfold EndsInSign; decide, by unfold EndsInSign; decide⟩
example : Timestamp.tryFromStr .debug .number Caches.new b!"2024-01-02 10:00" (-1) .mdy = .ok ⟨757504800000000⟩ := by
  decide +kernel
example : Timestamp.tryFromStr .debug .number Caches.new b!"2024-01-02 10:00 11:00" (-1) .mdy = .err .invalid := by
  decide +kernel

/-- Two dates of different forms. -/
example : Twice .date b!"2024-01-02 10:00 5-mar-2024" := by
  refine ⟨[], b!"2024-01-02", [b!"10:00"], b!"5-mar-2024", [], by decide, ?_, ?_, by unfold EndsInSign; decide,
    by unfold EndsInSign; decide⟩
  · exact JoinedDate.numbers 45 b!"2024" b!"01" b!"02" (by unfold Separator; decide) (by decide) (by unfold Digits; decide)
      (by decide) (by unfold Digits; decide) (by unfold Digit; decide)
  · exact JoinedDate.named 45 b!"5" 109 b!"ar-2024" (by unfold Separator; decide) (by decide) (by unfold Digits; decide)
      (by unfold Letter; decide) (by unfold Letter Digit; decide)

/-- Two month names, weekdays, a.m. and p.m., eras. -/
example : Twice .month b!"Jan 5 MARCH 2024" :=
  ⟨[], b!"Jan", [b!"5"], b!"MARCH", [b!"2024"], by decide, ⟨1, b!"jan", by decide, by unfold SameButCase; decide⟩,
    ⟨3, b!"march", by decide, by unfold SameButCase; decide⟩, by unfold EndsInSign; decide, by unfold EndsInSign; decide⟩
example : Twice .weekday b!"Mon tues 2024-01-02" :=
  ⟨[], b!"Mon", [], b!"tues", [b!"2024-01-02"], by decide, ⟨b!"mon", 1, by decide, by unfold SameButCase; decide⟩,
    ⟨b!"tues", 2, by decide, by unfold SameButCase; decide⟩, by unfold EndsInSign; decide, by unfold EndsInSign; decide⟩
example : Twice .meridiem b!"10:00 am PM" :=
  ⟨[b!"10:00"], b!"am", [], b!"PM", [], by decide, ⟨false, by unfold MeridiemWord SameButCase; decide⟩,
    ⟨true, by unfold MeridiemWord SameButCase; decide⟩, by unfold EndsInSign; decide, by unfold EndsInSign; decide⟩
example : Time.tryFromStr .debug .number Caches.new b!"10:00 am PM" (-1) .mdy = .err .invalid ∧
    Time.tryFromStr .debug .number Caches.new b!"10:00 PM" (-1) .mdy = .ok ⟨79200000000⟩ := by decide +kernel
example : Twice .era b!"2024-01-02 BC ad" :=
  ⟨[b!"2024-01-02"], b!"BC", [], b!"ad", [], by decide, Or.inr (by unfold SameButCase; decide),
    Or.inl (by unfold SameButCase; decide), by unfold EndsInSign; decide, by unfold EndsInSign; decide⟩

/-- The condition on signs: a sign takes what follows along, here the second clock time as a time zone. -/
example : scan .number b!"10:00 - 11:00" = .ok [(.time, b!"10:00"), (.tz, b!"-11:00")] := by decide +kernel

/-- Two month names in one word. -/
example : JoinedDate b!"jan-mar-5-2024" ∧ TwoMonths b!"jan-mar-5-2024" :=
  ⟨JoinedDate.nameFirst 45 b!"jan" b!"mar-5-2024" (by unfold Separator; decide) (by decide) (by unfold Letter; decide)
      (by unfold Letter Digit Separator; decide),
    [], b!"jan", b!"-", b!"mar", b!"-5-2024", by decide, ⟨1, by decide⟩, ⟨3, by decide⟩, by simp, by decide,
    by unfold Letter; simp, by unfold Letter; simp, by unfold Letter; simp⟩
example : Date.tryFromStr .debug .number Caches.new b!"jan-mar-5-2024" .mdy = .err .invalid ∧
    Date.tryFromStr .debug .number Caches.new b!"mar-5-2024" .mdy = .ok ⟨8830⟩ := by decide +kernel

end Props
