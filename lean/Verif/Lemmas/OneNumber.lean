import Verif.Lemmas.Wordy
import Verif.Lemmas.ClockValue
import Verif.Lemmas.Ornament
import Verif.Lemmas.Shuffle

/-! # Texts with one number -/

namespace Pg
open Spec

variable {p : Profile} {order : DateOrder} {ftypes : List TokenField} {i : Nat}

/-- Before the number: no part of a date but a month by its name, no part of a time. -/
structure NoPart (m : Nat) (text : Bool) (k : TokenField) : Prop where
  plain : text = false → m &&& 14 = 0
  text : text = true → m &&& 14 = 2
  clock : m &&& 3072 = 0
  next : k ≠ .julian ∧ k ≠ .time

/-- After the number: at most one part of a date besides a month by its name, and not the hour and the minute. -/
structure OnePart (m : Nat) (text : Bool) (k : TokenField) : Prop where
  plain : text = false → m &&& 14 = 0 ∨ m &&& 14 = 2 ∨ m &&& 14 = 4 ∨ m &&& 14 = 8
  text : text = true → m &&& 14 = 2 ∨ m &&& 14 = 6 ∨ m &&& 14 = 10
  clock : m &&& 3072 ≠ 3072
  next : k ≠ .julian ∧ k ≠ .time

theorem NoPart.one {m : Nat} {b : Bool} {k : TokenField} (h : NoPart m b k) : OnePart m b k :=
  ⟨fun t => Or.inl (h.plain t), fun t => Or.inl (h.text t), by rw [h.clock]; decide, h.next⟩

theorem OnePart.date {m : Nat} {b : Bool} {k : TokenField} (h : OnePart m b k) : m &&& 14 ≠ 14 := by
  cases ht : b
  · rcases h.plain ht with k | k | k | k <;> omega
  · rcases h.text ht with k | k | k <;> omega

theorem or_and (m t k : Nat) : (m ||| t) &&& k = m &&& k ||| t &&& k := Nat.and_or_distrib_right ..

/-- A word that is no label of a Julian day and not the word for midnight. -/
def PlainWord (f : Field) : Prop :=
  (f.1 = .string ∨ f.1 = .special) ∧ ¬ Entry f .reserv 16 ∧ ¬ Entry f .units 31

theorem NoPart.upd {m : Nat} {b : Bool} {k k' : TokenField} (h : NoPart m b k) (hn : k' ≠ .julian ∧ k' ≠ .time)
    {t : Nat} (h1 : t &&& 14 = 0) (h2 : t &&& 3072 = 0) : NoPart (m ||| t) b k' := by
  refine ⟨fun k => ?_, fun k => ?_, ?_, hn⟩
  · rw [or_and, h.plain k, h1]; rfl
  · rw [or_and, h.text k, h1]; rfl
  · rw [or_and, h.clock, h2]; rfl

theorem OnePart.upd {m : Nat} {b : Bool} {k k' : TokenField} (h : OnePart m b k) (hn : k' ≠ .julian ∧ k' ≠ .time)
    {t : Nat} (h1 : t &&& 14 = 0) (h2 : t &&& 3072 = 0) : OnePart (m ||| t) b k' := by
  refine ⟨fun k => ?_, fun k => ?_, ?_, hn⟩
  · rw [or_and, h1, Nat.or_zero]; exact h.plain k
  · rw [or_and, h1, Nat.or_zero]; exact h.text k
  · rw [or_and, h2, Nat.or_zero]; exact h.clock

/-- A word before the number. -/
theorem word_noPart (ty : TokenType) (v : Int) (d : Dec) (hd : NoPart d.fMask d.textMonth d.pType) (h1 : ¬ (ty = .reserv ∧ v = 16)) (h2 : ¬ (ty = .units ∧ v = 31))
    (h3 : ty = .units → v ≠ 3) :
    Post (wordAction ftypes i ty v) (fun _ d' => Post addMask (fun _ e => NoPart e.fMask e.textMonth e.pType) d') d := by
  unfold wordAction
  rw [Post.bind, Post.mod]
  split
  · unfold reservedWord
    wp
    intro a ha
    split <;> wp
    · exact absurd ⟨rfl, ofInt_value ha⟩ h1
    · rw [addMask_post]
      dsimp only; exact fun _ => hd.upd hd.next (by decide) (by decide)
  · unfold monthWord
    rw [Post.mod, addMask_post]
    dsimp only
    cases ht : d.textMonth with
    | false =>
      have := hd.plain ht
      have h0 : d.fMask &&& 2 = 0 := by
        rw [show (2 : Nat) = 14 &&& 2 by decide, ← Nat.and_assoc, this]; rfl
      rw [if_neg (by rw [h0]; simp)]
      refine fun _ => ⟨fun k => (by cases k), fun _ => ?_, ?_, hd.next⟩
      · dsimp only; rw [or_and, this]; rfl
      · dsimp only; rw [or_and, hd.clock]; rfl
    | true =>
      rw [if_neg (by simp)]
      intro hm
      exfalso
      have := hd.text ht
      have h0 : d.fMask &&& 2 = 2 := by
        rw [show (2 : Nat) = 14 &&& 2 by decide, ← Nat.and_assoc, this]; rfl
      dsimp only at hm
      rw [Nat.and_comm, show TokenType.month.mask = 2 by decide, h0] at hm
      cases hm
  · rw [Post.mod, addMask_post]; dsimp only; exact fun _ => hd.upd hd.next (by decide) (by decide)
  · rw [Post.mod, addMask_post]; dsimp only; exact fun _ => hd.upd hd.next (by decide) (by decide)
  · rw [Post.mod, addMask_post]; dsimp only; exact fun _ => hd.upd hd.next (by decide) (by decide)
  · wp
    intro a ha
    rw [addMask_post]
    dsimp only
    refine fun _ => hd.upd ⟨?_, ?_⟩ (by decide) (by decide)
    · rintro h; subst h; exact h2 ⟨rfl, ofInt_value ha⟩
    · rintro h; subst h; exact h3 rfl (ofInt_value ha)
  · unfold isoTimeWord
    wp
    intro h
    exact absurd hd.one.date h
  · rw [Post.fail]; trivial

/-- A word after the number. -/
theorem word_onePart (ty : TokenType) (v : Int) (d : Dec) (hd : OnePart d.fMask d.textMonth d.pType) (h1 : ¬ (ty = .reserv ∧ v = 16)) (h2 : ¬ (ty = .units ∧ v = 31))
    (h3 : ty = .units → v ≠ 3) :
    Post (wordAction ftypes i ty v) (fun _ d' => Post addMask (fun _ e => OnePart e.fMask e.textMonth e.pType) d') d := by
  unfold wordAction
  rw [Post.bind, Post.mod]
  split
  · unfold reservedWord
    wp
    intro a ha
    split <;> wp
    · exact absurd ⟨rfl, ofInt_value ha⟩ h1
    · rw [addMask_post]
      dsimp only; exact fun _ => hd.upd hd.next (by decide) (by decide)
  · unfold monthWord
    rw [Post.mod, addMask_post]
    dsimp only
    cases ht : d.textMonth with
    | false =>
      have cut : ∀ {k}, 14 &&& k = k → d.fMask &&& k = d.fMask &&& 14 &&& k := fun {k} hk => by rw [Nat.and_assoc, hk]
      have c2 := cut (k := 2) (by decide)
      rcases hd.plain ht with this | this | this | this
      · rw [this] at c2
        rw [if_neg (by rw [c2]; simp)]
        refine fun _ => ⟨fun k => (by cases k), fun _ => Or.inl ?_, ?_, hd.next⟩
        · dsimp only; rw [or_and, this]; rfl
        · dsimp only; rw [or_and, show TokenType.month.mask &&& 3072 = 0 by decide, Nat.or_zero]; exact hd.clock
      · split
        · refine fun _ => ⟨fun k => (by cases k), fun _ => Or.inr (Or.inr ?_), ?_, hd.next⟩
          · dsimp only; rw [or_and, this]; rfl
          · dsimp only; rw [or_and, show 8 &&& 3072 = 0 by decide, Nat.or_zero]; exact hd.clock
        · intro hm
          exfalso
          rw [this] at c2
          dsimp only at hm
          rw [Nat.and_comm, show TokenType.month.mask = 2 by decide, c2] at hm
          cases hm
      · rw [this] at c2
        rw [if_neg (by rw [c2]; simp)]
        refine fun _ => ⟨fun k => (by cases k), fun _ => Or.inr (Or.inl ?_), ?_, hd.next⟩
        · dsimp only; rw [or_and, this]; rfl
        · dsimp only; rw [or_and, show TokenType.month.mask &&& 3072 = 0 by decide, Nat.or_zero]; exact hd.clock
      · rw [this] at c2
        rw [if_neg (by rw [c2]; simp)]
        refine fun _ => ⟨fun k => (by cases k), fun _ => Or.inr (Or.inr ?_), ?_, hd.next⟩
        · dsimp only; rw [or_and, this]; rfl
        · dsimp only; rw [or_and, show TokenType.month.mask &&& 3072 = 0 by decide, Nat.or_zero]; exact hd.clock
    | true =>
      rw [if_neg (by simp)]
      intro hm
      exfalso
      have h0 : d.fMask &&& 2 = 2 := by
        rw [show (2 : Nat) = 14 &&& 2 by decide, ← Nat.and_assoc]
        rcases hd.text ht with this | this | this <;> rw [this] <;> rfl
      dsimp only at hm
      rw [Nat.and_comm, show TokenType.month.mask = 2 by decide, h0] at hm
      cases hm
  · rw [Post.mod, addMask_post]; dsimp only; exact fun _ => hd.upd hd.next (by decide) (by decide)
  · rw [Post.mod, addMask_post]; dsimp only; exact fun _ => hd.upd hd.next (by decide) (by decide)
  · rw [Post.mod, addMask_post]; dsimp only; exact fun _ => hd.upd hd.next (by decide) (by decide)
  · wp
    intro a ha
    rw [addMask_post]
    dsimp only
    refine fun _ => hd.upd ⟨?_, ?_⟩ (by decide) (by decide)
    · rintro h; subst h; exact h2 ⟨rfl, ofInt_value ha⟩
    · rintro h; subst h; exact h3 rfl (ofInt_value ha)
  · unfold isoTimeWord
    wp
    intro h
    exact absurd hd.date h
  · rw [Post.fail]; trivial

theorem NoPart.part {m : Nat} {b : Bool} {k k' : TokenField} (h : NoPart m b k) (hn : k' ≠ .julian ∧ k' ≠ .time) {t : Nat}
    (h1 : t &&& 14 = 0 ∨ t &&& 14 = 4 ∨ t &&& 14 = 8 ∨ (t &&& 14 = 2 ∧ t &&& m = 0)) (h2 : t &&& 3072 ≠ 3072) : OnePart (m ||| t) b k' := by
  have hc : (m ||| t) &&& 3072 ≠ 3072 := by rw [or_and, h.clock, Nat.zero_or]; exact h2
  have hb : (m ||| t) &&& 14 = m &&& 14 ||| t &&& 14 := or_and ..
  refine ⟨fun e => ?_, fun e => ?_, hc, hn⟩
  · rw [hb, h.plain e, Nat.zero_or]
    tauto
  · rw [hb, h.text e]
    rcases h1 with k | k | k | ⟨k, kk⟩
    · rw [k]; decide
    · rw [k]; decide
    · rw [k]; decide
    · rw [k]; decide

/-- A number of at most five digits. -/
theorem number_part {w : Bytes} (hw : Digits w) (hl : w.length ≤ 5) (s : Dec × Unit) (hs : NoPart s.1.fMask s.1.textMonth s.1.pType) :
    Post (dateTimeField p plainLook order ftypes i (.number, w)) (fun _ s' => OnePart s'.1.fMask s'.1.textMonth s'.1.pType) s := by
  obtain ⟨d, ⟨⟩⟩ := s
  dsimp only at hs
  have hdot : 46 ∉ w := fun h => by have := hw 46 h; omega
  have bits : d.fMask &&& 14 = 0 ∨ d.fMask &&& 14 = 2 := by
    cases ht : d.textMonth
    · exact Or.inl (hs.plain ht)
    · exact Or.inr (hs.text ht)
  have fin : ∀ {t : Dec} (m : Nat) (k : TokenField), t.fMask = d.fMask → t.textMonth = d.textMonth → t.tMask = m → t.pType = k →
      (k ≠ .julian ∧ k ≠ .time) → (m &&& 14 = 0 ∨ m &&& 14 = 4 ∨ m &&& 14 = 8 ∨ m &&& 14 = 2) → m &&& 3072 ≠ 3072 →
      Post addMask (fun _ e => OnePart e.fMask e.textMonth e.pType) t := by
    rintro t m k h1 h2 rfl rfl h3 h4 h5
    rw [addMask_post]
    intro hm
    dsimp only
    rw [h1, h2]
    rw [h1] at hm
    exact hs.part h3 (by tauto) h5
  unfold dateTimeField
  dsimp only
  unfold numberToken
  wp
  have e1 : ¬ dotPos w ≠ w.length := by rw [dotPos_all hdot]; simp
  refine ⟨fun hp => ?_, fun hp => ?_⟩
  · unfold labelled
    wp
    rintro ⟨v, r⟩ hr _
    have hr' := str2i32_noDot hdot hr
    dsimp only
    refine fun _ => ?_
    unfold labelAssign
    have ok : (TokenField.number ≠ .julian ∧ TokenField.number ≠ .time) := by decide
    split
    · rw [Post.mod]; exact fin _ .number rfl rfl rfl rfl ok (by dsimp only; decide) (by dsimp only; decide)
    · rw [Post.mod]
      split
      · exact fin _ .number rfl rfl rfl rfl ok (by dsimp only; decide) (by dsimp only; decide)
      · exact fin _ .number rfl rfl rfl rfl ok (by dsimp only; decide) (by dsimp only; decide)
    · rw [Post.mod]; exact fin _ .number rfl rfl rfl rfl ok (by dsimp only; decide) (by dsimp only; decide)
    · rw [Post.mod]; exact fin _ .number rfl rfl rfl rfl ok (by dsimp only; decide) (by dsimp only; decide)
    · rw [Post.mod]; exact fin _ .number rfl rfl rfl rfl ok (by dsimp only; decide) (by dsimp only; decide)
    · wp
      exact ⟨fun h => absurd h hr', fun _ => fin _ .number rfl rfl rfl rfl ok (by dsimp only; decide) (by dsimp only; decide)⟩
    · rename_i h; exact absurd h hs.next.1
    · rename_i h; exact absurd h hs.next.2
    · rw [Post.fail]; trivial
  · refine ⟨fun h => absurd h.1 e1, fun _ => ⟨fun h => absurd h.1 e1, fun _ => ⟨fun h => by omega, fun _ => ?_⟩⟩⟩
    unfold onNum
    rw [Post.zoom]
    unfold decodeNumber
    wp
    rintro ⟨v, r⟩ hr _
    have hr' := str2i32_noDot hdot hr
    dsimp only
    cases r with
    | cons c r =>
      dsimp only
      rw [if_neg (by rintro rfl; exact hr' rfl), Post.fail]
      trivial
    | nil =>
      dsimp only
      unfold decodeNumberVal
      rw [if_neg (by rcases bits with h | h <;> rw [h] <;> simp)]
      unfold numberByMask
      rcases bits with h | h
      · simp only [h]
        wp
        refine ⟨fun _ => ⟨fun _ => ?_, fun _ => ⟨fun _ => ?_, fun _ => ?_⟩⟩, fun h => absurd trivial h⟩
        · exact fin 4 d.pType rfl rfl (by simp) rfl hs.next (by decide) (by decide)
        · exact fin 8 d.pType rfl rfl (by simp) rfl hs.next (by decide) (by decide)
        · exact fin 2 d.pType rfl rfl (by simp) rfl hs.next (by decide) (by decide)
      · simp only [h]
        rw [if_neg (by decide), if_neg (by decide), if_pos (by decide), if_neg (by decide)]
        wp
        split
        all_goals exact fin _ d.pType rfl rfl rfl rfl hs.next (by dsimp only; decide) (by dsimp only; decide)

/-! ## The loop -/

/-- The words of the table that are labels have no code of a time of day. -/
theorem units_table : ∀ e ∈ dateTable, e.ty = .units → e.value ≠ 3 := by decide +kernel

theorem word_field_part {f : Field} (hf : PlainWord f) {I : Nat → Bool → TokenField → Prop}
    (act : ∀ (ty : TokenType) (v : Int) (d : Dec), I d.fMask d.textMonth d.pType → ¬ (ty = .reserv ∧ v = 16) → ¬ (ty = .units ∧ v = 31) →
      (ty = .units → v ≠ 3) → Post (wordAction ftypes i ty v) (fun _ d' => Post addMask (fun _ e => I e.fMask e.textMonth e.pType) d') d)
    (s : Dec × Unit) (hs : I s.1.fMask s.1.textMonth s.1.pType) :
    Post (dateTimeField p plainLook order ftypes i f) (fun _ s' => I s'.1.fMask s'.1.textMonth s'.1.pType) s := by
  obtain ⟨hf, h1, h2⟩ := hf
  have word : Post (wordToken plainLook ftypes i f.2 >>= fun ignored =>
      if ignored then pure () else noLook addMask) (fun _ s' => I s'.1.fMask s'.1.textMonth s'.1.pType) s := by
    unfold wordToken
    wp
    rw [Post.look]
    wp
    refine ⟨fun _ => ⟨fun _ => hs, fun h => absurd trivial h⟩, fun _ => ?_⟩
    by_cases hu : (tokenResult (lookupIn dateTable f.2)).1 = .unknownField
    · rw [hu]; unfold wordAction; wp
    · refine (act _ _ s.1 hs ?_ ?_ ?_).mono fun _ d h => ⟨fun h => (by cases h), fun _ => h⟩
      · rintro ⟨q1, q2⟩
        exact h1 ⟨hf, Prod.ext q1 q2, by decide⟩
      · rintro ⟨q1, q2⟩
        exact h2 ⟨hf, Prod.ext q1 q2, by decide⟩
      · intro q1
        revert q1 hu
        cases he : lookupIn dateTable f.2 with
        | none => exact fun hu _ => absurd rfl hu
        | some e => exact fun _ q1 => units_table e ((lookupIn_some dateTable_sorted _ e).1 he).1 q1
  unfold dateTimeField
  rcases hf with h | h
  · rw [h]; exact word
  · rw [h]; exact word

theorem decode_one {l1 l2 : List Field} {w : Bytes} (h1 : ∀ f ∈ l1, PlainWord f) (h2 : ∀ f ∈ l2, PlainWord f) (hw : Digits w)
    (hl : w.length ≤ 5) {d : Dec} (h : decodeDateTime p plainLook order (l1 ++ (.number, w) :: l2) ({}, ()) = (.ok (), (d, ()))) :
    d.dType ≠ .date := by
  have loop : ∀ ft, Post (dateTimeLoop p plainLook order ft (l1 ++ (.number, w) :: l2) 0)
      (fun _ s' => OnePart s'.1.fMask s'.1.textMonth s'.1.pType) ({}, ()) := by
    intro ft a s' h
    obtain ⟨s1, e1, e2⟩ := loop_before l1 _ _ h
    have i1 := loop_all (I := fun d => NoPart d.fMask d.textMonth d.pType) (G := PlainWord) (fun ft i f s k1 k2 =>
      word_field_part k1 (I := NoPart) (fun ty v d a b c e => word_noPart ty v d a b c e) s k2) l1 ft 0 ({}, ()) h1
      ⟨fun _ => rfl, fun h => (by cases h), rfl, by decide⟩ _ _ e1
    rw [dateTimeLoop] at e2
    obtain ⟨x, s2, e3, e4⟩ := bind_ran e2
    have i2 := number_part hw hl s1 i1 _ _ e3
    exact loop_all (I := fun d => OnePart d.fMask d.textMonth d.pType) (G := PlainWord) (fun ft i f s k1 k2 =>
      word_field_part k1 (I := OnePart) (fun ty v d a b c e => word_onePart ty v d a b c e) s k2) l2 ft _ s2 h2 i2 _ _ e4
  have : Post (decodeDateTime p plainLook order (l1 ++ (.number, w) :: l2)) (fun _ s' => s'.1.dType ≠ .date) ({}, ()) := by
    unfold decodeDateTime
    rw [Post.bind]
    refine (loop _).mono fun _ s' hs => ?_
    unfold finishFields
    wp
    have fin : ∀ d : Dec, d.fMask = s'.1.fMask → ¬ (d.dType = .date ∧ d.fMask &&& DTK_DATE_M ≠ DTK_DATE_M ∧
        d.fMask &&& DTK_TIME_M ≠ DTK_TIME_M) → d.dType ≠ .date := by
      intro d e h hd
      refine h ⟨hd, ?_, ?_⟩
      · rw [e]; exact hs.date
      · intro h3
        refine hs.clock ?_
        rw [e] at h3
        have := congrArg (fun n => n &&& 3072) h3
        rwa [Nat.and_assoc] at this
    intro tm _ _
    refine ⟨fun _ h => fin _ rfl h, fun _ => ⟨fun _ _ _ h => fin _ rfl h, fun _ h => fin _ rfl h⟩⟩
  exact this _ _ h

/-- The words in the texts. -/
theorem plainWord_of {x : Bytes} (h : Letters x) (nx : x ≠ []) (hn : ¬ Known [b!"j", b!"jd", b!"julian", b!"allballs"] x) :
    PlainWord (fieldOf x) := by
  rw [(letters_oneField (u := .number) h nx).1]
  have key : ∀ ty v, (∀ e ∈ dateTable, e.ty = ty → e.value = v → e.token ∈ [b!"j", b!"jd", b!"julian", b!"allballs"]) →
      ty ≠ .unknownField → ¬ Entry (.string, lower x) ty v := by
    rintro ty v tab hty ⟨-, h2, -⟩
    dsimp only at h2
    cases he : lookupIn dateTable (lower x) with
    | none => rw [he] at h2; cases h2; exact hty rfl
    | some e =>
      rw [he] at h2
      obtain ⟨m1, m2⟩ := (lookupIn_some dateTable_sorted _ e).1 he
      cases h2
      have hin := tab e m1 rfl rfl
      refine hn ⟨e.token, hin, ?_⟩
      have sm : ∀ t ∈ [b!"j", b!"jd", b!"julian", b!"allballs"], t.map smallLetter = t := by decide +kernel
      unfold SameButCase
      rw [sm _ hin, m2, lower_eq_small, List.map_take]
  exact ⟨Or.inl rfl, key _ _ (by decide +kernel) (by decide), key _ _ (by decide +kernel) (by decide)⟩

theorem words_ne : ∀ s : Bytes, ∀ x ∈ words s, x ≠ [] := by
  intro s
  induction s with
  | nil => intro x hx; cases hx
  | cons c s ih =>
    intro x hx
    unfold words at hx
    split at hx
    · exact ih x hx
    · split at hx
      · obtain rfl : x = [c] := by simpa using hx
        simp
      · split at hx
        · rcases List.mem_cons.1 hx with rfl | h
          · simp
          · exact ih x h
        · split at hx
          · obtain rfl : x = [c] := by simpa using hx
            simp
          · rename_i w l e
            rcases List.mem_cons.1 hx with rfl | h
            · simp
            · exact ih x (by rw [e]; exact List.mem_cons_of_mem _ h)

end Pg
