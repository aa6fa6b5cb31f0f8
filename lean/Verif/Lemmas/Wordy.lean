import Verif.Lemmas.Special

/-! # Texts without digits -/

namespace Pg
open Spec

variable {p : Profile} {order : DateOrder} {ftypes : List TokenField} {i : Nat}

/-- The masks of texts without digits: no day, no hour, and no month but by its name. -/
def Wordy (m : Nat) (text : Bool) : Prop :=
  m.testBit 3 = false ∧ m.testBit 10 = false ∧ (m.testBit 1 = true → text = true)

theorem Wordy.or {m t : Nat} {b : Bool} (h : Wordy m b) (ht : t.testBit 3 = false) (ht' : t.testBit 10 = false)
    (h1 : t.testBit 1 = false) : Wordy (m ||| t) b := by
  obtain ⟨a1, a2, a3⟩ := h
  refine ⟨by rw [Nat.testBit_or, a1, ht]; rfl, by rw [Nat.testBit_or, a2, ht']; rfl, fun h => a3 ?_⟩
  rw [Nat.testBit_or, h1, Bool.or_false] at h
  exact h

theorem bit_and {m k : Nat} (h : m &&& 2 ^ k ≠ 0) : m.testBit k = true := by
  refine Decidable.byContradiction fun hb => h (Nat.eq_of_testBit_eq fun j => ?_)
  rw [Nat.testBit_and, Nat.zero_testBit, Nat.testBit_two_pow]
  by_cases hk : k = j
  · subst hk; simpa using hb
  · simp [hk]

theorem wordy_action (ty : TokenType) (v : Int) (d : Dec) (hd : Wordy d.fMask d.textMonth) (hv : ¬ (ty = .reserv ∧ v = 16)) :
    Post (wordAction ftypes i ty v) (fun _ d' => Wordy (d'.fMask ||| d'.tMask) d'.textMonth) d := by
  unfold wordAction
  rw [Post.bind, Post.mod]
  split
  · unfold reservedWord
    wp
    intro a ha
    split <;> wp
    · exact absurd ⟨rfl, ofInt_value ha⟩ hv
    · exact hd.or (by decide) (by decide) (by decide)
  · unfold monthWord
    rw [Post.mod]
    dsimp only
    split
    · rename_i h
      have := hd.2.2 (bit_and (k := 1) h.1)
      rw [h.2.1] at this
      cases this
    · obtain ⟨a1, a2, a3⟩ := hd
      dsimp only
      exact ⟨by rw [Nat.testBit_or, a1]; decide, by rw [Nat.testBit_or, a2]; decide, fun _ => rfl⟩
  · rw [Post.mod]; dsimp only; exact hd.or (by decide) (by decide) (by decide)
  · rw [Post.mod]; dsimp only; exact hd.or (by decide) (by decide) (by decide)
  · rw [Post.mod]; dsimp only; exact hd.or (by decide) (by decide) (by decide)
  · wp
    exact fun _ _ => hd.or (by decide) (by decide) (by decide)
  · unfold isoTimeWord
    wp
    intro _
    split
    · rw [Post.panic]; trivial
    · wp
      exact fun _ _ _ => hd.or (by decide) (by decide) (by decide)
  · rw [Post.fail]; trivial

/-! ## Dates without digits -/

theorem split_words : ∀ (fuel : Nat) (s : Bytes) (nf : Nat) (l : List Bytes), (∀ b ∈ s, isDigit b = false) →
    dateSplit fuel s nf = .ok l → ∀ w ∈ l, ∃ b r, w = b :: r ∧ isAlpha b = true := by
  intro fuel
  induction fuel with
  | zero => intro s nf l _ h; rw [dateSplit] at h; cases h; simp
  | succ n ih =>
    intro s nf l hs h
    rw [dateSplit] at h
    split at h
    · cases h; simp
    · have hsub : ∀ b ∈ s.dropWhile (fun b => ¬ isAlnum b), isDigit b = false :=
        fun b hb => hs b ((List.dropWhile_suffix _).subset hb)
      have hst := stops_drop (fun b => ¬ isAlnum b) s
      split at h
      · cases h
      · rename_i c r e
        rw [e] at hsub hst
        have hc := hsub c (by simp)
        have ha : isAlpha c = true := by
          have := hst c rfl
          simp only [isAlnum, hc, Bool.or_false, Bool.not_eq_true, decide_eq_false_iff_not, Bool.not_eq_false] at this
          simpa using this
        rw [if_neg (by rw [hc]; decide), Res.bind_eq_ok] at h
        obtain ⟨l', h1, h⟩ := h
        cases h
        intro w hw
        rcases List.mem_cons.1 hw with rfl | hw
        · exact ⟨c, r.takeWhile isAlpha, by rw [List.takeWhile_cons_of_pos ha], ha⟩
        · exact ih _ _ _ (fun b hb => hsub b ((List.dropWhile_suffix _).subset hb)) h1 w hw

theorem textPass_words : ∀ (l : List Bytes) (i : Nat) (s : DateS × Unit), (∀ w ∈ l, ∃ b r, w = b :: r ∧ isAlpha b = true) →
    Post (textPass plainLook l i) (fun left s' => (∀ o ∈ left, ∀ w, o = some w → ∃ b r, w = b :: r ∧ isAlpha b = true) ∧
      (s.1.fMask.testBit 3 = false → s'.1.fMask.testBit 3 = false)) s := by
  intro l
  induction l with
  | nil => intro i s _; rw [textPass, Post.pure]; exact ⟨by simp, id⟩
  | cons f l ih =>
    intro i s h
    have hf := h f (by simp)
    have hl := fun w hw => h w (List.mem_cons_of_mem f hw)
    rw [textPass]
    wp
    refine ⟨fun _ => ?_, fun _ => (ih _ _ hl).mono fun _ _ k => ⟨?_, k.2⟩⟩
    · rw [Post.look]
      refine ⟨fun _ => (ih _ _ hl).mono fun _ _ k => ⟨?_, k.2⟩, fun _ _ _ => (ih _ _ hl).mono fun _ _ k => ⟨?_, fun hb => k.2 ?_⟩⟩
      · intro o ho w hw
        rcases List.mem_cons.1 ho with rfl | ho
        · cases hw; exact hf
        · exact k.1 o ho w hw
      · intro o ho w hw
        rcases List.mem_cons.1 ho with rfl | ho
        · cases hw
        · exact k.1 o ho w hw
      · dsimp only
        rw [Nat.testBit_or, hb]; decide
    · intro o ho w hw
      rcases List.mem_cons.1 ho with rfl | ho
      · cases hw; exact hf
      · exact k.1 o ho w hw

theorem decodeNumber_word {b : Nat} {r : Bytes} (hb : isAlpha b = true) (t : Bool) (m : Nat) (s : NumS) :
    Post (decodeNumber (b :: r) t m order) (fun _ _ => False) s := by
  have hsp := alpha_noSpace b hb
  have hd : isDigit b = false := by
    rw [isAlpha_iff] at hb
    rw [Bool.eq_false_iff, ne_eq, isDigit_iff]; omega
  have hx : extractSign (b :: r) = (1, b :: r) := by
    unfold extractSign
    split
    · rename_i e; injection e with e _; subst e; cases hb
    · rename_i e; injection e with e _; subst e; cases hb
    · rfl
  have he : str2i32 (b :: r) = .ok (0, b :: r) := by
    unfold str2i32
    simp only [List.dropWhile_cons_of_neg (show ¬ isSpace b = true by rw [hsp]; decide), List.isEmpty_cons, hx,
      List.dropWhile_cons_of_neg (show ¬ isDigit b = true by rw [hd]; decide),
      List.takeWhile_cons_of_neg (show ¬ isDigit b = true by rw [hd]; decide)]
    rfl
  unfold decodeNumber
  wp
  intro a ha
  rw [he] at ha
  cases ha
  exact fun h => absurd rfl h

theorem numPass_words : ∀ (l : List (Option Bytes)) (s : DateS), (∀ o ∈ l, ∀ w, o = some w → ∃ b r, w = b :: r ∧ isAlpha b = true) →
    Post (numPass order l) (fun _ s' => s' = s) s := by
  intro l
  induction l with
  | nil => intro s _; rw [numPass, Post.pure]
  | cons o l ih =>
    intro s h
    cases o with
    | none => rw [numPass]; exact ih s fun o ho => h o (List.mem_cons_of_mem _ ho)
    | some f =>
      obtain ⟨b, r, rfl, hb⟩ := h (some f) (by simp) f rfl
      rw [numPass]
      wp
      intro _
      rw [Post.zoom]
      exact (decodeNumber_word hb _ _ _).mono fun _ _ h => h.elim

theorem date_words {w : Bytes} (hw : ∀ b ∈ w, isDigit b = false) (s : Dec × Unit) (hs : s.1.fMask.testBit 3 = false) :
    Post (decodeDate plainLook w order) (fun _ _ => False) s := by
  unfold decodeDate
  rw [Post.zoom]
  unfold dateBody
  wp
  intro l hl
  refine (textPass_words l 0 _ (split_words _ _ _ _ hw hl)).mono fun left s' h => ?_
  refine (numPass_words left s'.1 h.1).mono fun _ d e => ?_
  subst e
  intro hm
  have := h.2 hs
  have h3 := congrArg (fun n => n.testBit 3) (Decidable.not_not.1 hm)
  simp only [Nat.testBit_and, this] at h3
  exact absurd h3 (by decide)

theorem dateToken_words {w : Bytes} (hw : ∀ b ∈ w, isDigit b = false) (nw : w ≠ []) (s : Dec × Unit) (hs : s.1.fMask.testBit 3 = false) :
    Post (dateToken p plainLook w order) (fun _ _ => False) s := by
  obtain ⟨c, r, rfl⟩ := List.exists_cons_of_ne_nil nw
  unfold dateToken
  wp
  intro _
  refine ⟨fun _ h => ?_, fun _ => date_words hw s hs⟩
  intro h'
  rcases h with h | h
  · rw [hw c (by simp)] at h; cases h
  · exact h' h

/-! ## Fields without digits -/

/-- Words and word-like dates without digits, none of them the word for midnight. -/
def Bare (f : Field) : Prop :=
  (f.1 = .string ∨ f.1 = .special ∨ (f.1 = .date ∧ f.2 ≠ [] ∧ ∀ b ∈ f.2, isDigit b = false)) ∧ ¬ Entry f .reserv 16

theorem field_bare {f : Field} (hf : Bare f) (s : Dec × Unit) (hs : Wordy s.1.fMask s.1.textMonth) :
    Post (dateTimeField p plainLook order ftypes i f) (fun _ s' => Wordy s'.1.fMask s'.1.textMonth) s := by
  obtain ⟨h, hn⟩ := hf
  have word : (f.1 = .string ∨ f.1 = .special) → Post (wordToken plainLook ftypes i f.2 >>= fun ignored =>
      if ignored then pure () else noLook addMask) (fun _ s' => Wordy s'.1.fMask s'.1.textMonth) s := by
    intro hf
    unfold wordToken
    wp
    rw [Post.look]
    wp
    refine ⟨fun _ => ⟨fun _ => hs, fun h => absurd trivial h⟩, fun _ => ?_⟩
    by_cases hu : (tokenResult (lookupIn dateTable f.2)).1 = .unknownField
    · rw [hu]; unfold wordAction; wp
    · refine (wordy_action _ _ s.1 hs ?_).mono fun _ d h => ⟨fun h => (by cases h), fun _ => ?_⟩
      · rintro ⟨h1, h2⟩
        exact hn ⟨hf, Prod.ext h1 h2, by decide⟩
      · rw [addMask_post]
        exact fun _ => h
  unfold dateTimeField
  rcases h with h | h | ⟨h, h1, h2⟩
  · rw [h]; exact word (Or.inl h)
  · rw [h]; exact word (Or.inr h)
  · rw [h]
    dsimp only
    rw [Post.bind]
    exact (dateToken_words h2 h1 s hs.1).mono fun _ _ h => h.elim

theorem decode_bare {l : List Field} (hl : ∀ f ∈ l, Bare f) (c : Unit) :
    Post (decodeDateTime p plainLook order l) (fun _ s' => s'.1.dType ≠ .date) ({}, c) := by
  unfold decodeDateTime
  rw [Post.bind]
  refine (loop_all (I := fun d => Wordy d.fMask d.textMonth) (G := Bare) (fun ft i f s h1 h2 => field_bare h1 s h2) l _ 0 ({}, c) hl
    ⟨Nat.zero_testBit 3, Nat.zero_testBit 10, fun h => by rw [show (({}, c) : Dec × Unit).1.fMask = 0 from rfl, Nat.zero_testBit] at h; cases h⟩).mono fun _ s' hs => ?_
  unfold finishFields
  wp
  have fin : ∀ d : Dec, d.fMask = s'.1.fMask → ¬ (d.dType = .date ∧ d.fMask &&& DTK_DATE_M ≠ DTK_DATE_M ∧
      d.fMask &&& DTK_TIME_M ≠ DTK_TIME_M) → d.dType ≠ .date := by
    intro d e h hd
    refine h ⟨hd, ?_, ?_⟩
    · intro h3
      have := congrArg (fun n => n.testBit 3) h3
      simp only [Nat.testBit_and, e, hs.1] at this
      exact absurd this (by decide)
    · intro h3
      have := congrArg (fun n => n.testBit 10) h3
      simp only [Nat.testBit_and, e, hs.2.1] at this
      exact absurd this (by decide)
  intro tm _ _
  refine ⟨fun _ h => fin _ rfl h, fun _ => ⟨fun _ _ _ h => fin _ rfl h, fun _ h => fin _ rfl h⟩⟩

/-- The fields of a text without digits. -/
theorem scan_bareKind {u : TokenField} {s : Bytes} {l : List Field} (h : scan u s = .ok l) (hd : ∀ b ∈ s, ¬ Digit b ∧ b ≠ 46)
    (hn : NoLastSign s) : ∀ f ∈ l, f.1 = .string ∨ f.1 = .special ∨ (f.1 = .date ∧ f.2 ≠ [] ∧ ∀ b ∈ f.2, isDigit b = false) := by
  intro f hf
  have hw := scan_wordAt h f hf
  have hd' : ∀ b ∈ s, isDigit b = false := fun b hb => by
    rw [Bool.eq_false_iff, ne_eq, isDigit_iff]; exact (hd b hb).1
  have kind := scan_each (P := fun f => f.1 = .string ∨ f.1 = .special ∨ (f.1 = .date ∧ f.2 ≠ [] ∧ ∀ b ∈ f.2, isDigit b = false)) (fun a t f rest he hc hk => by
    cases hk with
    | word _ _ _ _ _ e => exact Or.inl (by rw [e])
    | signed _ _ _ _ _ _ _ _ _ e => exact Or.inr (Or.inl (by rw [e]))
    | date e e1 e2 =>
      refine Or.inr (Or.inr ⟨e, e1, fun b hb => ?_⟩)
      rw [Bool.eq_false_iff]
      intro h
      obtain ⟨x, hx, hx'⟩ := e2 b hb h
      rw [hd' x (by rw [he]; simp [hx])] at hx'
      cases hx'
    | other _ h =>
      exfalso
      obtain ⟨b, hb, h⟩ := h
      have hb' : b ∈ s := by rw [he]; simp [hb]
      rcases h with h | h
      · rw [hd' b hb'] at h; cases h
      · exact (hd b hb').2 h
    | sign sg hsg hb _ _ =>
      exfalso
      obtain ⟨b, e, hb⟩ := hb
      subst he e
      have hns : isSpace sg = false := by rcases hsg with rfl | rfl <;> rfl
      have : ∃ w, (words (a ++ sg :: b)).getLast? = some w ∧ w.getLast? = some sg := by
        clear hc hf hw h hd hd' hn
        induction a with
        | nil => exact ⟨[sg], by
            rw [List.nil_append, words_over hns (by
              cases b with
              | nil => exact Or.inl rfl
              | cons x r => exact Or.inr ⟨x, r, rfl, hb x (by simp)⟩)]
            have : words b = [] := by have := words_spaces (w := b) hb []; rw [List.append_nil] at this; exact this
            rw [this]; rfl, rfl⟩
        | cons x a ih =>
          obtain ⟨w, h1, h2⟩ := ih
          rw [List.cons_append]
          cases hx : isSpace x with
          | true => rw [words_space hx]; exact ⟨w, h1, h2⟩
          | false =>
            by_cases ho : Over (a ++ sg :: b)
            · rw [words_over hx ho]
              refine ⟨w, ?_, h2⟩
              rw [List.getLast?_cons, h1]; rfl
            · obtain ⟨w', l', e, h3⟩ := words_head hx (a ++ sg :: b)
              obtain ⟨hne, e2⟩ := h3 ho
              rw [e]
              rw [e2] at h1
              cases l' with
              | nil =>
                cases h1
                exact ⟨x :: w', rfl, by rw [List.getLast?_cons, show w'.getLast? = some sg from h2]; rfl⟩
              | cons y l'' =>
                refine ⟨w, ?_, h2⟩
                rw [List.getLast?_cons_cons] at h1 ⊢
                exact h1
      obtain ⟨w, h1, h2⟩ := this
      refine hn w h1 ?_
      unfold EndsInSign
      rw [h2]
      rcases hsg with rfl | rfl <;> simp) h f hf
  exact kind

theorem scan_bare {u : TokenField} {s : Bytes} {l : List Field} (h : scan u s = .ok l) (hd : ∀ b ∈ s, ¬ Digit b ∧ b ≠ 46)
    (hn : NoLastSign s) (hm : ¬ Says [b!"allballs"] s) : ∀ f ∈ l, Bare f := fun f hf =>
  ⟨scan_bareKind h hd hn f hf, fun he => hm (midnight_word he (scan_wordAt h f hf))⟩

end Pg
