import Verif.Lemmas.Twice
import Verif.Spec.Vocabulary

/-!
# Words that are not accepted
-/

namespace Pg
open Spec

/-- One step of the scanner. -/
theorem scanLoop_step {u : TokenField} {b : Nat} {t rest : Bytes} {f : Field} (hb : startB b = true)
    (hf : scanField u b (b :: t) = .ok (f, rest)) {fuel cap nf : Nat} {l : List Field} (hl : (b :: t).length < fuel)
    (h : scanLoop u fuel (b :: t) cap nf = .ok l) :
    ∃ l' fuel' cap' nf', l = f :: l' ∧ fuel = fuel' + 1 ∧ scanLoop u fuel' rest cap' nf' = .ok l' := by
  cases fuel with
  | zero => omega
  | succ n =>
    have hs : isSpace b = false := startB_noSpace hb
    rw [scanLoop] at h
    simp only [List.dropWhile_cons_of_neg (show ¬ isSpace b = true by rw [hs]; decide)] at h
    split at h
    · cases h
    · rw [if_pos (show (isDigit b || b = 46 || isAlpha b || b = 43 || b = 45) = true from hb)] at h
      split at h
      · cases h
      · rw [hf, Res.bind_ok] at h
        simp only at h
        split at h
        · cases h
        · rw [Res.bind_eq_ok] at h
          obtain ⟨l', h4, h⟩ := h
          cases h
          exact ⟨l', n, _, _, rfl, rfl, h4⟩

/-- A clock time before something that is no part of it. -/
theorem clock_scan {u : TokenField} {x c : Bytes} (hx : Mark.clock.Is x) (hc : Stops isTimeB c) :
    ∃ b r, x = b :: r ∧ startB b = true ∧ scanField u b (x ++ c) = .ok ((.time, x), c) := by
  obtain ⟨a, r, rfl, na, ha, hr⟩ := hx
  have hr' : ∀ b ∈ 58 :: r, isTimeB b = true := by
    intro b hb
    rcases List.mem_cons.1 hb with rfl | hb
    · rfl
    · have := hr b hb
      unfold Digit at this
      simp only [isTimeB, Bool.or_eq_true, isDigit_iff, decide_eq_true_eq]
      tauto
  have : scanDigit (a ++ (58 :: r ++ c)) = ((.time, a ++ 58 :: r), c) := by
    rw [scanDigit, List.cons_append, takeWhile_span (digits_isDigit ha) (Stops.cons rfl), dropWhile_span (digits_isDigit ha) (Stops.cons rfl)]
    simp only [if_true]
    rw [← List.cons_append, takeWhile_span hr' hc, dropWhile_span hr' hc]
  obtain ⟨b, r', e, h1, h2⟩ := digit_word (u := u) ha na this
  refine ⟨b, r' ++ 58 :: r, by rw [e]; rfl, h1, ?_⟩
  rw [List.append_assoc]; exact h2

/-- A number before a letter. -/
theorem number_scan {u : TokenField} {x : Bytes} {b : Nat} {t : Bytes} (hx : Digits x) (nx : x ≠ []) (hb : isAlpha b = true) :
    ∃ y r, x = y :: r ∧ startB y = true ∧ scanField u y (x ++ b :: t) = .ok ((.number, x), b :: t) := by
  have hb' := (isAlpha_iff b).1 hb
  have hnd : isDigit b = false := by rw [Bool.eq_false_iff, ne_eq, isDigit_iff]; omega
  refine digit_word hx nx ?_
  rw [scanDigit, takeWhile_span (digits_isDigit hx) (Stops.cons hnd), dropWhile_span (digits_isDigit hx) (Stops.cons hnd)]
  simp only
  rw [if_neg (by omega), if_neg (by simp; omega)]

/-- The scanner at an unattached or attached word. -/
theorem scanLoop_word {u : TokenField} {a w c : Bytes} (ha : Attached a) (nw : w ≠ []) (hw : Letters w) (hc : Over c)
    {fuel cap nf : Nat} {l : List Field} (hf : ((a ++ w) ++ c).length < fuel) (h : scanLoop u fuel ((a ++ w) ++ c) cap nf = .ok l) :
    ∃ l1 l2, l = l1 ++ (.string, lower w) :: l2 := by
  -- the word itself
  have last : ∀ {fuel cap nf : Nat} {l : List Field}, (w ++ c).length < fuel → scanLoop u fuel (w ++ c) cap nf = .ok l →
      ∃ l2, l = (.string, lower w) :: l2 := by
    intro fuel cap nf l hf h
    obtain ⟨b, r, e, h1, h2⟩ := word_scan (u := u) hw nw hc
    have e' : w ++ c = b :: (r ++ c) := by rw [e]; rfl
    rw [e'] at hf h h2
    obtain ⟨l', _, _, _, rfl, -, -⟩ := scanLoop_step h1 h2 hf h
    exact ⟨l', rfl⟩
  -- what stands before it
  have first : ∀ {f : Field} {b : Nat} {r : Bytes}, a = b :: r → startB b = true → scanField u b (a ++ (w ++ c)) = .ok (f, w ++ c) →
      ∃ l1 l2, l = l1 ++ (.string, lower w) :: l2 := by
    intro f b r e h1 h2
    rw [List.append_assoc] at hf h
    have e' : a ++ (w ++ c) = b :: (r ++ (w ++ c)) := by rw [e]; rfl
    rw [e'] at hf h h2
    obtain ⟨l', n, cap', nf', rfl, rfl, h3⟩ := scanLoop_step h1 h2 hf h
    obtain ⟨l2, rfl⟩ := last (by simp only [List.length_cons, List.length_append] at hf ⊢; omega) h3
    exact ⟨[f], l2, rfl⟩
  obtain ⟨b0, r0, e0⟩ := List.exists_cons_of_ne_nil nw
  have hb0 := hw b0 (by rw [e0]; simp)
  rcases ha with rfl | ⟨na, ha⟩ | ha
  · obtain ⟨l2, rfl⟩ := last hf h
    exact ⟨[], l2, rfl⟩
  · obtain ⟨b, r, e, h1, h2⟩ := number_scan (u := u) (t := r0 ++ c) ha na hb0
    refine first (f := (.number, a)) e h1 ?_
    rw [e0]; exact h2
  · have hst : Stops isTimeB (w ++ c) := by
      rw [e0]
      refine Stops.cons ?_
      have := (isAlpha_iff b0).1 hb0
      rw [Bool.eq_false_iff, ne_eq]
      simp only [isTimeB, Bool.or_eq_true, isDigit_iff, decide_eq_true_eq]
      omega
    obtain ⟨b, r, e, h1, h2⟩ := clock_scan (u := u) ha hst
    exact first e h1 h2

/-- The scanner at a difference from universal time. -/
theorem scanLoop_zone {u : TokenField} {x c : Bytes} (hx : ZoneOffset x) {fuel cap nf : Nat} {l : List Field}
    (hf : (x ++ c).length < fuel) (h : scanLoop u fuel (x ++ c) cap nf = .ok l) : ∃ l1 z l2, l = l1 ++ (.tz, z) :: l2 := by
  obtain ⟨a, s, d, r, rfl, ha, hs, hd⟩ := hx
  have hd' : isDigit d = true := (isDigit_iff d).2 hd
  have last : ∀ {fuel cap nf : Nat} {l : List Field}, (s :: d :: r ++ c).length < fuel → scanLoop u fuel (s :: d :: r ++ c) cap nf = .ok l →
      ∃ z l2, l = (.tz, z) :: l2 := by
    intro fuel cap nf l hf h
    have hsp : isSpace d = false := Bool.eq_false_iff.2 fun h => by rw [space_digit d h] at hd'; cases hd'
    have h2 : scanField u s (s :: d :: r ++ c) = .ok ((.tz, s :: (d :: (r ++ c)).takeWhile isSignedB), (d :: (r ++ c)).dropWhile isSignedB) := by
      have : isDigit s = false ∧ s ≠ 46 ∧ isAlpha s = false := by rcases hs with rfl | rfl <;> decide
      rw [scanField, if_neg (by rw [this.1]; decide), if_neg this.2.1, if_neg (by rw [this.2.2]; decide)]
      simp only [scanSign, List.cons_append, List.dropWhile_cons_of_neg (show ¬ isSpace d = true by rw [hsp]; decide), if_pos hd']
    obtain ⟨l', _, _, _, rfl, -, -⟩ := scanLoop_step (by rcases hs with rfl | rfl <;> rfl) h2 hf h
    exact ⟨_, l', rfl⟩
  rcases ha with rfl | ha
  · obtain ⟨z, l2, rfl⟩ := last hf h
    exact ⟨[], z, l2, rfl⟩
  · have hst : Stops isTimeB (s :: d :: r ++ c) := Stops.cons (by rcases hs with rfl | rfl <;> rfl)
    obtain ⟨b, t, e, h1, h2⟩ := clock_scan (u := u) ha hst
    rw [List.append_assoc] at hf h
    have e' : a ++ (s :: d :: r ++ c) = b :: (t ++ (s :: d :: r ++ c)) := by rw [e]; rfl
    rw [e'] at hf h h2
    obtain ⟨l', n, cap', nf', rfl, rfl, h3⟩ := scanLoop_step h1 h2 hf h
    obtain ⟨z, l2, rfl⟩ := last (by simp only [List.length_cons, List.length_append] at hf ⊢; omega) h3
    exact ⟨[(.time, a)], z, l2, rfl⟩

/-- The scanner on a text with a word. -/
theorem scan_word {P : Bytes → Prop} {Q : Field → Prop} {u : TokenField} {s : Bytes}
    (hQ : ∀ {x c : Bytes} {fuel cap nf : Nat} {l : List Field}, P x → Over c → (x ++ c).length < fuel →
      scanLoop u fuel (x ++ c) cap nf = .ok l → ∃ l1 f l2, l = l1 ++ f :: l2 ∧ Q f)
    (h : HasWord P s) {l : List Field} (hs : scan u s = .ok l) : ∃ l1 f l2, l = l1 ++ f :: l2 ∧ Q f := by
  obtain ⟨w1, x, w2, hw, hx, hn⟩ := h
  obtain ⟨a, c, rfl, k2, k3, k4, k5⟩ := a_word w1 hw
  unfold scan at hs
  split at hs
  · cases hs
  · obtain ⟨l1, l2, fu, ca, nf, rfl, hf, hl⟩ := scanLoop_within _ a _ _ _ k3 (noSign_of (by rw [k2]; exact hn)) (Nat.lt_succ_self _) hs
    obtain ⟨m1, f, m2, rfl, hq⟩ := hQ hx k4 hf hl
    exact ⟨l1 ++ m1, f, m2, by simp, hq⟩

theorem scan_unknown {l0 : List Bytes} {u : TokenField} {s : Bytes} (h : HasWord (UnknownWord l0) s) {l : List Field}
    (hs : scan u s = .ok l) : ∃ l1 f l2, l = l1 ++ f :: l2 ∧ ∃ w, f = (.string, lower w) ∧ Letters w ∧ ¬ Known l0 w := by
  refine scan_word (Q := fun f => ∃ w, f = (.string, lower w) ∧ Letters w ∧ ¬ Known l0 w) ?_ h hs
  rintro x c fuel cap nf l ⟨a, w, rfl, ha, nw, hw, hk⟩ hc hf hl
  have hw' : Letters w := fun b hb => (isAlpha_iff b).2 (hw b hb)
  obtain ⟨l1, l2, rfl⟩ := scanLoop_word ha nw hw' hc hf hl
  exact ⟨l1, _, l2, rfl, w, rfl, hw', hk⟩

theorem scan_zone {u : TokenField} {s : Bytes} (h : HasWord ZoneOffset s) {l : List Field}
    (hs : scan u s = .ok l) : ∃ l1 f l2, l = l1 ++ f :: l2 ∧ f.1 = .tz := by
  refine scan_word (Q := fun f => f.1 = .tz) ?_ h hs
  intro x c fuel cap nf l hx hc hf hl
  obtain ⟨l1, z, l2, rfl⟩ := scanLoop_zone hx hf hl
  exact ⟨l1, _, l2, rfl, rfl⟩

/-! ## The decoders -/

theorem lookup_known {t : List DateToken} {l0 : List Bytes} (hl : ∀ v ∈ l0, v.map smallLetter = v) {w : Bytes} (hw : Letters w)
    (hk : ¬ Known l0 w) {e : DateToken} (he : lookupIn t (lower w) = some e) :
    e ∈ t ∧ e.token ∉ l0 ∧ ∀ b ∈ e.token, isAlpha b = true := by
  have h1 : e ∈ t := List.mem_of_find?_eq_some he
  have h2 : e.token = (lower w).take 10 := by simpa using List.find?_some he
  refine ⟨h1, fun hm => hk ⟨_, hm, ?_⟩, fun b hb => ?_⟩
  · unfold SameButCase
    rw [hl _ hm, h2]
    unfold lower
    rw [show lowerB = smallLetter from funext lowerB_letter, List.map_take]
  · rw [h2] at hb
    have hb := List.mem_of_mem_take hb
    unfold lower at hb
    obtain ⟨x, hx, rfl⟩ := List.mem_map.1 hb
    have := (isAlpha_iff x).1 (hw x hx)
    rw [lowerB_letter, isAlpha_iff]
    unfold smallLetter
    split <;> omega

/-- Kinds of words that dates do not take. -/
def noDateWord (ty : TokenType) (v : Int) : Bool :=
  ty = .unknownField || ty = .tz || ty = .dtz || ty = .dtzmod || (ty = .reserv && (v = 8 || v = 12 || v = 13 || v = 14 || v = 15))

/-- Kinds of words that times do not take. -/
def noTimeWord (ty : TokenType) (v : Int) : Bool :=
  ty = .unknownField || ty = .tz || ty = .dtz || ty = .dtzmod || ty = .month || ty = .dow ||
    (ty = .reserv && (v = 7 || v = 8 || v = 10 || v = 11 || v = 12 || v = 13 || v = 14 || v = 15))

theorem dateTable_words : ∀ e ∈ dateTable, e.token ∉ dateWords → (∀ b ∈ e.token, isAlpha b = true) → noDateWord e.ty e.value = true := by
  decide +kernel
theorem dateTable_timeWords : ∀ e ∈ dateTable, e.token ∉ timeWords → (∀ b ∈ e.token, isAlpha b = true) → noTimeWord e.ty e.value = true := by
  decide +kernel
theorem deltaTable_words : ∀ e ∈ deltaTable, ¬ (e.token ∉ intervalWords ∧ ∀ b ∈ e.token, isAlpha b = true) := by
  decide +kernel
theorem small_words : (∀ v ∈ dateWords, v.map smallLetter = v) ∧ (∀ v ∈ timeWords, v.map smallLetter = v) ∧
    ∀ v ∈ intervalWords, v.map smallLetter = v := by decide +kernel

variable {p : Profile} {order : DateOrder} {ftypes : List TokenField} {i : Nat}

theorem unknown_refused {w : Bytes} (hw : Letters w) (hk : ¬ Known dateWords w) (s : Dec × Unit) :
    Post (dateTimeField p plainLook order ftypes i (.string, lower w)) (fun _ _ => False) s := by
  have h : ∃ ty v, tokenResult (lookupIn dateTable (lower w)) = (ty, v) ∧ noDateWord ty v = true := by
    cases he : lookupIn dateTable (lower w) with
    | none => exact ⟨_, _, rfl, rfl⟩
    | some e =>
      obtain ⟨h1, h2, h3⟩ := lookup_known small_words.1 hw hk he
      exact ⟨_, _, rfl, dateTable_words e h1 h2 h3⟩
  obtain ⟨ty, v, ht, hn⟩ := h
  unfold dateTimeField wordToken
  simp only
  rw [Post.bind, Post.bind, Post.look, ht]
  dsimp only
  simp only [noDateWord, Bool.or_eq_true, Bool.and_eq_true, decide_eq_true_eq] at hn
  rcases hn with (((rfl | rfl) | rfl) | rfl) | ⟨rfl, hv⟩
  · rw [if_neg (by decide), Post.bind]; unfold wordAction; wp
  · rw [if_neg (by decide), Post.bind]; unfold wordAction; wp
  · rw [if_neg (by decide), Post.bind]; unfold wordAction; wp
  · rw [if_neg (by decide), Post.bind]; unfold wordAction; wp
  · rw [if_neg (by decide), Post.bind]; unfold wordAction reservedWord; wp
    rcases hv with (((rfl | rfl) | rfl) | rfl) | rfl <;>
    · intro a ha
      cases ha
      wp

theorem unknown_refusedT {w : Bytes} (hw : Letters w) (hk : ¬ Known timeWords w) (s : Dec × Unit) :
    Post (timeOnlyField p plainLook order ftypes i (.string, lower w)) (fun _ _ => False) s := by
  have h : ∃ ty v, tokenResult (lookupIn dateTable (lower w)) = (ty, v) ∧ noTimeWord ty v = true := by
    cases he : lookupIn dateTable (lower w) with
    | none => exact ⟨_, _, rfl, rfl⟩
    | some e =>
      obtain ⟨h1, h2, h3⟩ := lookup_known small_words.2.1 hw hk he
      exact ⟨_, _, rfl, dateTable_timeWords e h1 h2 h3⟩
  obtain ⟨ty, v, ht, hn⟩ := h
  unfold timeOnlyField wordTokenT
  simp only
  rw [Post.bind, Post.bind, Post.look, ht]
  dsimp only
  simp only [noTimeWord, Bool.or_eq_true, Bool.and_eq_true, decide_eq_true_eq] at hn
  rcases hn with (((((rfl | rfl) | rfl) | rfl) | rfl) | rfl) | ⟨rfl, hv⟩
  · rw [if_neg (by decide), Post.bind]; unfold wordActionT; wp
  · rw [if_neg (by decide), Post.bind]; unfold wordActionT; wp
  · rw [if_neg (by decide), Post.bind]; unfold wordActionT; wp
  · rw [if_neg (by decide), Post.bind]; unfold wordActionT; wp
  · rw [if_neg (by decide), Post.bind]; unfold wordActionT; wp
  · rw [if_neg (by decide), Post.bind]; unfold wordActionT; wp
  · rw [if_neg (by decide), Post.bind]; unfold wordActionT reservedWordT; wp
    rcases hv with ((((((rfl | rfl) | rfl) | rfl) | rfl) | rfl) | rfl) | rfl <;>
    · intro a ha
      cases ha
      wp

theorem Post.lookDelta {σ : Type} {i : Nat} {w : Bytes} {Q : TokenType × Int → σ × Unit → Prop} {s : σ × Unit} :
    Post (Pg.lookDelta plainLook i w) Q s ↔ Q (tokenResult (lookupIn deltaTable w)) s := by
  constructor
  · intro h
    refine h _ _ ?_
    simp only [Pg.lookDelta, plainLook, searchDelta_eq]
  · intro h a s' e
    simp only [Pg.lookDelta, plainLook, searchDelta_eq] at e
    cases e
    exact h

theorem unknown_refusedI {w : Bytes} (hw : Letters w) (hk : ¬ Known intervalWords w) (range : Nat) (s : IvS × Unit) :
    Post (intervalField p plainLook range i (.string, lower w)) (fun _ _ => False) s := by
  have ht : tokenResult (lookupIn deltaTable (lower w)) = (.unknownField, 0) := by
    cases he : lookupIn deltaTable (lower w) with
    | none => rfl
    | some e =>
      obtain ⟨h1, h2, h3⟩ := lookup_known small_words.2.2 hw hk he
      exact (deltaTable_words e h1 ⟨h2, h3⟩).elim
  unfold intervalField
  simp only
  rw [Post.bind, Post.lookDelta, ht]
  dsimp only
  rw [if_neg (by decide)]
  unfold intervalWord
  wp

theorem zone_refused {f : Field} (h : f.1 = .tz) (s : Dec × Unit) :
    Post (dateTimeField p plainLook order ftypes i f) (fun _ _ => False) s := by
  unfold dateTimeField
  rw [h]
  wp

theorem zone_refusedT {f : Field} (h : f.1 = .tz) (s : Dec × Unit) :
    Post (timeOnlyField p plainLook order ftypes i f) (fun _ _ => False) s := by
  unfold timeOnlyField
  rw [h]
  wp

/-- A date or timestamp with a field that is never accepted. -/
theorem decode_never {x : Field} (hx : ∀ ft i s, Post (dateTimeField p plainLook order ft i x) (fun _ _ => False) s)
    (l1 l2 : List Field) (c : Unit) : Post (decodeDateTime p plainLook order (l1 ++ x :: l2)) (fun _ _ => False) ({}, c) := by
  unfold decodeDateTime
  rw [Post.bind]
  suffices ∀ ft, Post (dateTimeLoop p plainLook order ft (l1 ++ x :: l2) 0) (fun _ _ => False) ({}, c) from
    (this _).mono fun _ _ h => h.elim
  intro ft
  exact loop_never (F := fun ft i f => dateTimeField p plainLook order ft i f) (loop := fun ft l i => dateTimeLoop p plainLook order ft l i)
    (fun _ _ _ _ => rfl) (I := fun _ => True) (fun _ _ f s h => fun _ _ _ => trivial) (fun ft i s _ => hx ft i s) _ _ _ _ _ trivial

/-- A time with a field that is never accepted. -/
theorem decode_neverT {x : Field} (hx : ∀ ft i s, Post (timeOnlyField p plainLook order ft i x) (fun _ _ => False) s)
    (l1 l2 : List Field) (c : Unit) : Post (decodeTimeOnly p plainLook order (l1 ++ x :: l2)) (fun _ _ => False) ({}, c) := by
  unfold decodeTimeOnly
  rw [Post.bind]
  suffices ∀ ft, Post (timeOnlyLoop p plainLook order ft (l1 ++ x :: l2) 0) (fun _ _ => False) ({}, c) from
    (this _).mono fun _ _ h => h.elim
  intro ft
  exact loop_never (F := fun ft i f => timeOnlyField p plainLook order ft i f) (loop := fun ft l i => timeOnlyLoop p plainLook order ft l i)
    (fun _ _ _ _ => rfl) (I := fun _ => True) (fun _ _ f s h => fun _ _ _ => trivial) (fun ft i s _ => hx ft i s) _ _ _ _ _ trivial

/-- An interval with a field that is never accepted. -/
theorem decode_neverI {range : Nat} {x : Field} (hx : ∀ i s, Post (intervalField p plainLook range i x) (fun _ _ => False) s)
    (style : IntervalStyle) (l1 l2 : List Field) (s : IvS × Unit) :
    Post (decodeInterval p plainLook range style (l1 ++ x :: l2)) (fun _ _ => False) s := by
  unfold decodeInterval
  rw [Post.bind]
  suffices ∀ i s, Post (intervalLoop p plainLook range (l1 ++ x :: l2) i) (fun _ _ => False) s from
    (this _ _).mono fun _ _ h => h.elim
  induction l1 with
  | nil =>
    intro i s
    rw [List.nil_append, intervalLoop, Post.bind]
    exact fun _ s' _ => hx i s'
  | cons f l1 ih =>
    intro i s
    rw [List.cons_append, intervalLoop, Post.bind]
    exact (ih (i + 1) s).mono fun _ _ h => h.elim

end Pg
