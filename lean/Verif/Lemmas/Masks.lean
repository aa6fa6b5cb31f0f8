import Verif.Lemmas.Post

/-! # The masks of the fields seen so far -/

namespace Pg

variable {p : Profile} {order : DateOrder} {ftypes : List TokenField} {i : Nat}

/-- What a field does to the state before its mask is added. -/
def Frame (d d' : Dec) : Prop := d'.fMask = d.fMask ∧ (d.textMonth = true → d'.textMonth = true)

theorem frame_date (w : Bytes) (s : Dec × Unit) : Post (decodeDate plainLook w order) (fun _ s' => Frame s.1 s'.1) s := by
  unfold decodeDate
  rw [Post.zoom]
  exact Post.any fun _ _ => ⟨rfl, id⟩

theorem frame_num {α : Type} (m : St NumS α) (d : Dec) : Post (onNum m) (fun _ d' => Frame d d') d := by
  unfold onNum
  rw [Post.zoom]
  exact Post.any fun _ _ => ⟨rfl, id⟩

theorem frame_time {α : Type} (m : St TimeS α) (d : Dec) : Post (onTime m) (fun _ d' => Frame d d') d := by
  unfold onTime
  rw [Post.zoom]
  exact Post.any fun _ _ => ⟨rfl, id⟩

theorem Frame.trans {a b c : Dec} (h : Frame a b) (h' : Frame b c) : Frame a c :=
  ⟨h'.1.trans h.1, fun x => h'.2 (h.2 x)⟩

theorem Frame.refl (d : Dec) : Frame d d := ⟨rfl, id⟩

theorem frame_dateToken (w : Bytes) (s : Dec × Unit) :
    Post (dateToken p plainLook w order) (fun _ s' => Frame s.1 s'.1) s := by
  unfold dateToken
  wp
  intro _
  refine ⟨fun _ => ?_, fun _ => frame_date w s⟩
  split
  · rw [Post.pure]; exact Frame.refl _
  · wp
    exact fun _ _ => Frame.refl _

theorem frame_julian (v : Int) (w : Bytes) (d : Dec) : Post (labelJulian p v w) (fun _ d' => Frame d d') d := by
  unfold labelJulian
  wp
  intro _ _ _
  exact ⟨fun _ _ _ _ _ => ⟨rfl, id⟩, fun _ => ⟨rfl, id⟩⟩

theorem frame_assign (ty : TokenField) (str : Bytes) (v : Int) (w : Bytes) (d : Dec) :
    Post (labelAssign p ty str v w) (fun _ d' => Frame d d') d := by
  unfold labelAssign
  split <;> wp
  · exact ⟨rfl, id⟩
  · split <;> exact ⟨rfl, id⟩
  · exact ⟨rfl, id⟩
  · exact ⟨rfl, id⟩
  · exact ⟨rfl, id⟩
  · exact ⟨fun _ _ _ => ⟨rfl, id⟩, fun _ => ⟨rfl, id⟩⟩
  · exact frame_julian v w d
  · exact (frame_num _ d).mono fun _ _ h _ => h

theorem frame_labelled (str : Bytes) (d : Dec) : Post (labelled p str) (fun _ d' => Frame d d') d := by
  unfold labelled
  wp
  intro _ _ _ _
  exact (frame_assign _ _ _ _ d).mono fun _ _ h => h

theorem frame_number (w : Bytes) (s : Dec × Unit) :
    Post (numberToken p plainLook w order) (fun _ s' => Frame s.1 s'.1) s := by
  unfold numberToken
  wp
  exact ⟨fun _ => frame_labelled w s.1, fun _ => ⟨fun _ => frame_date w s, fun _ => ⟨fun _ => frame_num _ s.1,
    fun _ => ⟨fun _ => frame_num _ s.1, fun _ => frame_num _ s.1⟩⟩⟩⟩

theorem frame_action (ty : TokenType) (v : Int) (d : Dec) : Post (wordAction ftypes i ty v) (fun _ d' => Frame d d') d := by
  unfold wordAction
  rw [Post.bind, Post.mod]
  split
  · unfold reservedWord
    wp
    intro a _
    split <;> wp
    all_goals exact ⟨rfl, id⟩
  · unfold monthWord
    rw [Post.mod]
    dsimp only
    split
    · exact ⟨rfl, fun _ => rfl⟩
    · exact ⟨rfl, fun _ => rfl⟩
  · rw [Post.mod]; exact ⟨rfl, id⟩
  · rw [Post.mod]; exact ⟨rfl, id⟩
  · rw [Post.mod]; exact ⟨rfl, id⟩
  · wp
    exact fun _ _ => ⟨rfl, id⟩
  · unfold isoTimeWord
    wp
    intro _
    split
    · rw [Post.panic]; trivial
    · wp
      exact fun _ _ _ => ⟨rfl, id⟩
  · rw [Post.fail]; trivial

theorem frame_word (w : Bytes) (s : Dec × Unit) :
    Post (wordToken plainLook ftypes i w) (fun b s' => Frame s.1 s'.1 ∧ (b = true → s' = s)) s := by
  unfold wordToken
  rw [Post.bind, Post.look]
  dsimp only
  wp
  exact ⟨fun _ => Frame.refl _, fun _ => (frame_action _ _ s.1).mono fun _ _ h => ⟨h, fun h => by cases h⟩⟩

theorem frame_timeToken (w : Bytes) (d : Dec) : Post (timeToken w) (fun _ d' => Frame d d') d := by
  unfold timeToken
  wp
  intro _
  exact (frame_time _ { d with pType := .number }).mono fun _ _ h _ => h

/-- The bits of `a` are bits of `b`. -/
def Bits (a b : Nat) : Prop := ∀ k, a.testBit k = true → b.testBit k = true

theorem Bits.refl (a : Nat) : Bits a a := fun _ h => h
theorem Bits.left (a b : Nat) : Bits a (a ||| b) := fun k h => by rw [Nat.testBit_or, h]; rfl
theorem Bits.right (a b : Nat) : Bits b (a ||| b) := fun k h => by rw [Nat.testBit_or, h, Bool.or_true]
theorem Bits.trans {a b c : Nat} (h : Bits a b) (h' : Bits b c) : Bits a c := fun k x => h' k (h k x)

theorem addMask_post {Q : Unit → Dec → Prop} {d : Dec} :
    Post addMask Q d ↔ (d.tMask &&& d.fMask = 0 → Q () { d with fMask := d.fMask ||| d.tMask }) := by
  unfold addMask
  wp
  simp only [ne_eq, Decidable.not_not]

theorem bits_apart {a b : Nat} (h : a &&& b = 0) (k : Nat) (ha : a.testBit k = true) : b.testBit k = false := by
  have := congrArg (fun n => n.testBit k) h
  simp only [Nat.testBit_and, ha, Bool.true_and, Nat.zero_testBit] at this
  exact this

/-- A successful field adds its mask, or is ignored. -/
theorem field_mask (f : Field) (s : Dec × Unit) : Post (dateTimeField p plainLook order ftypes i f)
    (fun _ s' => Bits s.1.fMask s'.1.fMask ∧ (s.1.textMonth = true → s'.1.textMonth = true)) s := by
  have step : ∀ s' : Dec × Unit, Frame s.1 s'.1 → Post addMask
      (fun _ d' => Bits s.1.fMask d'.fMask ∧ (s.1.textMonth = true → d'.textMonth = true)) s'.1 := by
    intro s' h
    rw [addMask_post]
    intro _
    exact ⟨by rw [← h.1]; exact Bits.left _ _, h.2⟩
  unfold dateTimeField
  split <;> wp
  · exact (frame_dateToken f.2 s).mono fun _ s' h => step s' h
  · exact (frame_timeToken f.2 s.1).mono fun _ d' h => step (d', ()) h
  · exact (frame_number f.2 s).mono fun _ s' h => step s' h
  · refine (frame_word f.2 s).mono fun b s' h => ⟨fun hb => ?_, fun _ => step s' h.1⟩
    rw [h.2 hb]
    exact ⟨Bits.refl _, id⟩
  · refine (frame_word f.2 s).mono fun b s' h => ⟨fun hb => ?_, fun _ => step s' h.1⟩
    rw [h.2 hb]
    exact ⟨Bits.refl _, id⟩

/-- If `I` is an invariant of the fields that `x` establishes and that `y` cannot be read under, then no text with `x` before
`y` is read. -/
theorem loop_twice {F : List TokenField → Nat → Field → St (Dec × Unit) Unit}
    {loop : List TokenField → List Field → Nat → St (Dec × Unit) Unit}
    (hl : ∀ ftypes f fs i, loop ftypes (f :: fs) i = do F ftypes i f; loop ftypes fs (i + 1))
    {I0 I : Dec → Prop} (h0 : ∀ ftypes i f s, I0 s.1 → Post (F ftypes i f) (fun _ s' => I0 s'.1) s)
    (hI : ∀ ftypes i f s, I s.1 → Post (F ftypes i f) (fun _ s' => I s'.1) s) {x y : Field}
    (hx : ∀ ftypes i s, I0 s.1 → Post (F ftypes i x) (fun _ s' => I s'.1) s)
    (hy : ∀ ftypes i s, 0 < i → I s.1 → Post (F ftypes i y) (fun _ _ => False) s) (l1 l2 l3 : List Field) (ftypes : List TokenField)
    (i : Nat) (s : Dec × Unit) (hs : I0 s.1) : Post (loop ftypes (l1 ++ x :: (l2 ++ y :: l3)) i) (fun _ _ => False) s := by
  have after : ∀ l2 i s, 0 < i → I s.1 → Post (loop ftypes (l2 ++ y :: l3) i) (fun _ _ => False) s := by
    intro l2
    induction l2 with
    | nil =>
      intro i s hi h
      rw [List.nil_append, hl, Post.bind]
      exact (hy ftypes i s hi h).mono fun _ _ h => h.elim
    | cons f l2 ih =>
      intro i s hi h
      rw [List.cons_append, hl, Post.bind]
      exact (hI ftypes i f s h).mono fun _ s' h => ih _ s' (Nat.succ_pos _) h
  induction l1 generalizing i s with
  | nil =>
    rw [List.nil_append, hl, Post.bind]
    exact (hx ftypes i s hs).mono fun _ s' h => after l2 _ s' (Nat.succ_pos _) h
  | cons f l1 ih =>
    rw [List.cons_append, hl, Post.bind]
    exact (h0 ftypes i f s hs).mono fun _ s' h => ih _ s' h

theorem decodeTime_mask (w : Bytes) (r : Nat) (t : TimeS) : Post (decodeTime w r) (fun _ t' => t'.tMask = DTK_TIME_M) t := by
  unfold decodeTime
  wp
  intro a _
  split
  · wp
    intro b _
    have tail : ∀ (x : Bytes) (t : TimeS), t.tMask = DTK_TIME_M → Post (timeTail x r) (fun _ t' => t'.tMask = DTK_TIME_M) t := by
      intro x t h
      unfold timeTail
      split
      · wp
        exact ⟨fun _ => h, fun _ => h⟩
      · wp
        refine ⟨fun _ _ _ => h, fun _ _ => ?_⟩
        unfold timeSeconds
        wp
        intro _ _
        split
        · wp; exact h
        · wp; exact fun _ _ _ => h
    exact (tail _ _ rfl).mono fun _ _ h _ => h
  · wp

/-- The bit of the hours, 10. -/
theorem clock_claims (w : Bytes) (s : Dec × Unit) : Post (dateTimeField p plainLook order ftypes i (.time, w))
    (fun _ s' => s'.1.fMask.testBit 10 = true ∧ s.1.fMask.testBit 10 = false) s := by
  unfold dateTimeField timeToken onTime
  wp
  intro _
  rw [Post.zoom]
  refine (decodeTime_mask w _ _).mono fun _ t h _ => ?_
  rw [addMask_post]
  dsimp only
  rw [h]
  intro hm
  exact ⟨Bits.right _ _ 10 (by decide), bits_apart hm 10 (by decide)⟩

theorem mask_bit (ty : TokenType) : ty.mask.testBit ty.code = true := by cases ty <;> decide

/-- A word that sets the bit of its own type. -/
theorem word_claims {w : Bytes} {ty : TokenType} {v : Int} (hw : tokenResult (lookupIn dateTable w) = (ty, v))
    (hty : ty = .ampm ∨ ty = .adbc ∨ ty = .dow) (s : Dec × Unit) :
    Post (dateTimeField p plainLook order ftypes i (.string, w))
      (fun _ s' => s'.1.fMask.testBit ty.code = true ∧ s.1.fMask.testBit ty.code = false) s := by
  unfold dateTimeField wordToken
  simp only
  rw [Post.bind, Post.bind, Post.look, hw]
  dsimp only
  rcases hty with rfl | rfl | rfl <;>
  · rw [if_neg (by decide), Post.bind]
    unfold wordAction
    wp
    refine ⟨fun h => (by cases h), fun _ => ?_⟩
    rw [addMask_post]
    intro hm
    exact ⟨Bits.right _ _ _ (mask_bit _), bits_apart hm _ (mask_bit _)⟩

/-- After a month name. -/
def MonthSeen (d : Dec) : Prop := d.fMask.testBit 1 = true ∧ d.textMonth = true

theorem month_claims {w : Bytes} {v : Int} (hw : tokenResult (lookupIn dateTable w) = (.month, v)) (s : Dec × Unit) :
    Post (dateTimeField p plainLook order ftypes i (.string, w)) (fun _ s' => MonthSeen s'.1 ∧ ¬ MonthSeen s.1) s := by
  unfold dateTimeField wordToken
  simp only
  rw [Post.bind, Post.bind, Post.look, hw]
  dsimp only
  rw [if_neg (by decide), Post.bind]
  unfold wordAction monthWord
  wp
  refine ⟨fun h => (by cases h), fun _ => ?_⟩
  by_cases hc : s.1.fMask &&& DTK_MONTH_M ≠ 0 ∧ s.1.textMonth = false ∧ s.1.fMask &&& DTK_DAY_M = 0 ∧
        1 ≤ s.1.tm.mon ∧ s.1.tm.mon ≤ 31
  · rw [if_pos hc, addMask_post]
    intro _
    refine ⟨⟨Bits.left _ _ 1 ?_, rfl⟩, fun h => by rw [h.2] at hc; exact absurd hc.2.1 (by decide)⟩
    refine Decidable.byContradiction fun hb => hc.1 (Nat.eq_of_testBit_eq fun k => ?_)
    rw [Nat.testBit_and, Nat.zero_testBit, show (2 : Nat) = 2 ^ 1 from rfl, Nat.testBit_two_pow]
    by_cases hk : 1 = k
    · subst hk; simpa using hb
    · simp [hk]
  · rw [if_neg hc, addMask_post]
    intro hm
    refine ⟨⟨Bits.right _ _ 1 (mask_bit .month), rfl⟩, fun h => ?_⟩
    have := bits_apart hm 1 (mask_bit .month)
    rw [h.1] at this
    cases this

/-- A number read after the date is complete sets some bit. -/
theorem numberField_sets (w : Bytes) (m : Nat) (s : NumS) :
    Post (decodeNumberField w m) (fun _ s' => s'.tMask = DTK_TIME_M ∨ s'.tMask = DTK_DATE_M) s := by
  have time : ∀ (l : Nat) (s : NumS), Post (numberTime w l m) (fun _ s' => s'.tMask = DTK_TIME_M) s := by
    intro l s
    unfold numberTime
    wp
  unfold decodeNumberField numberDate
  wp
  refine ⟨fun _ _ _ => (time _ _).mono fun _ _ h => Or.inl h, fun _ => ⟨fun _ _ _ _ _ _ _ => Or.inr ?_,
    fun _ => (time _ _).mono fun _ _ h => Or.inl h⟩⟩
  split <;> rfl

theorem dropWhile_prefix {q : Nat → Bool} (hq : ∀ b, q b = true → b ≠ 46) (w : Bytes) :
    ∃ a, w = a ++ w.dropWhile q ∧ ∀ b ∈ a, b ≠ 46 :=
  ⟨w.takeWhile q, (List.takeWhile_append_dropWhile).symm, fun b hb => hq b (by
    have := List.all_takeWhile (p := q) (l := w)
    exact List.all_eq_true.1 this b hb)⟩

theorem str2i32_prefix {w : Bytes} {v : Int} {r : Bytes} (h : str2i32 w = .ok (v, r)) :
    ∃ a, w = a ++ r ∧ ∀ b ∈ a, b ≠ 46 := by
  obtain ⟨a, e, ha⟩ := dropWhile_prefix (q := isSpace) (by intro b hb; rintro rfl; simp [isSpace] at hb) w
  unfold str2i32 at h
  generalize hx : w.dropWhile isSpace = x at h e
  simp only at h
  split at h
  · cases h
    exact ⟨a, e, ha⟩
  · obtain ⟨g, e2, hg⟩ : ∃ g, x = g ++ (extractSign x).2 ∧ ∀ b ∈ g, b ≠ 46 := by
      unfold extractSign
      split
      · exact ⟨[43], rfl, by simp⟩
      · exact ⟨[45], rfl, by simp⟩
      · exact ⟨[], rfl, by simp⟩
    obtain ⟨k, e3, hk⟩ := dropWhile_prefix (q := isDigit) (by intro b hb; rintro rfl; simp [isDigit] at hb) (extractSign x).2
    split at h
    · cases h
    · split at h
      · cases h
        refine ⟨a ++ (g ++ k), ?_, ?_⟩
        · rw [List.append_assoc, List.append_assoc, ← e3, ← e2]; exact e
        · intro b hb
          simp only [List.mem_append] at hb
          rcases hb with hb | hb | hb
          · exact ha b hb
          · exact hg b hb
          · exact hk b hb
      · cases h

theorem dot_found {w : Bytes} {v : Int} {r : Bytes} (h : str2i32 w = .ok (v, 46 :: r)) :
    dotPos w = w.length - (46 :: r).length ∧ dotPos w ≠ w.length := by
  obtain ⟨a, rfl, ha⟩ := str2i32_prefix h
  have : dotPos (a ++ 46 :: r) = a.length := by
    unfold dotPos
    rw [List.takeWhile_append_of_pos (by simpa using ha)]
    simp
  rw [this]
  simp only [List.length_append, List.length_cons]
  omega

/-- A plain number sets some bit. -/
theorem number_sets {w : Bytes} {m : Nat} (b : Bool)
    (hw : dotPos w = w.length ∨ dotPos w ≤ 2) (s : NumS) :
    Post (decodeNumber w b m order) (fun _ s' => s'.tMask ≠ 0) s := by
  have val : ∀ (v : Int) (s : NumS), Post (decodeNumberVal w v b m order) (fun _ s' => s'.tMask ≠ 0) s := by
    intro v s
    have by_mask : Post (numberByMask w v b m order) (fun _ s' => s'.tMask ≠ 0) s := by
      unfold numberByMask
      wp
      simp (config := { decide := true }) only [implies_true, true_and, and_true]
      intro _ _ _ _ _ _ _
      exact (numberField_sets w m s).mono fun _ _ h => by omega
    unfold decodeNumberVal
    wp
    refine ⟨fun _ => by decide, fun _ => by_mask.mono fun _ _ h => ?_⟩
    split
    · exact h
    · exact h
  unfold decodeNumber
  wp
  intro a ha hs
  split
  · exact val _ _
  · wp
    rename_i c r e
    intro hc
    refine ⟨fun h2 => ?_, fun _ _ _ => val _ _⟩
    exfalso
    subst hc
    have := dot_found (w := w) (v := a.1) (r := r) (by rw [ha, ← e])
    rw [e] at h2
    omega

/-- The masks inside a date: `m` is the mask before it. -/
def DateMask (m : Nat) (s : DateS) : Prop := s.fMask = m ||| s.tMask

theorem textPass_mask (m : Nat) : ∀ (l : List Bytes) (i : Nat) (s : DateS × Unit), DateMask m s.1 →
    Post (textPass plainLook l i) (fun _ s' => DateMask m s'.1) s := by
  intro l
  induction l with
  | nil => intro i s h; rw [textPass, Post.pure]; exact h
  | cons f l ih =>
    intro i s h
    rw [textPass]
    wp
    refine ⟨fun _ => ?_, fun _ => ih _ _ h⟩
    rw [Post.look]
    wp
    refine ⟨fun _ => ih _ _ h, fun _ _ _ => ih _ _ ?_⟩
    unfold DateMask at h ⊢
    simp only [h]
    exact Nat.or_assoc _ _ _

theorem numPass_mask (m : Nat) : ∀ (l : List (Option Bytes)) (s : DateS), DateMask m s →
    Post (numPass order l) (fun _ s' => DateMask m s') s := by
  intro l
  induction l with
  | nil => intro s h; rw [numPass, Post.pure]; exact h
  | cons f l ih =>
    intro s h
    cases f with
    | none => rw [numPass]; exact ih s h
    | some f =>
      rw [numPass]
      wp
      intro _
      rw [Post.zoom]
      refine Post.any fun _ t _ => ih _ ?_
      unfold DateMask at h ⊢
      simp only [h]
      exact Nat.or_assoc _ _ _

/-- After a date of one field. -/
theorem date_mask (w : Bytes) (s : Dec × Unit) : Post (decodeDate plainLook w order)
    (fun _ s' => (s.1.fMask ||| s'.1.tMask) &&& 14 = 14 ∧ s'.1.pType = s.1.pType) s := by
  unfold decodeDate
  rw [Post.zoom]
  unfold dateBody
  wp
  intro a _
  refine (textPass_mask s.1.fMask a 0 _ (by unfold DateMask; simp)).mono fun r t ht => ?_
  refine (numPass_mask s.1.fMask r t.1 ht).mono fun _ t ht => ?_
  intro hm
  unfold DateMask at ht
  rw [← ht]
  rw [ne_eq, Decidable.not_not] at hm
  rw [← hm, ← Nat.and_assoc, Nat.and_self]

/-- The last mask is nonzero unless a label is waiting for its number, and has been added. -/
def Added (d : Dec) : Prop := Bits d.tMask d.fMask ∧ (d.pType = .number → d.tMask ≠ 0 ∨ d.fMask = 0)

/-- The mask of a field is nonzero unless it is a label. -/
def Sets (d : Dec) : Prop := d.pType = .number → d.tMask ≠ 0

theorem sets_date (w : Bytes) (s : Dec × Unit) (h : s.1.fMask &&& 10 ≠ 10) :
    Post (decodeDate plainLook w order) (fun _ s' => Sets s'.1) s := by
  refine (date_mask w s).mono fun _ s' hs _ h0 => h ?_
  have := hs.1
  rw [h0, Nat.or_zero] at this
  rw [show (10 : Nat) = 14 &&& 10 from rfl, ← Nat.and_assoc, this]

theorem sets_dateToken (w : Bytes) (s : Dec × Unit) (h : Added s.1) :
    Post (dateToken p plainLook w order) (fun _ s' => Sets s'.1) s := by
  unfold dateToken
  wp
  intro _
  refine ⟨fun hc => ?_, fun hc => sets_date w s (fun h => hc (Or.inr h))⟩
  have key : Sets s.1 := by
    intro hp
    rcases hc with hc | hc
    · exact absurd hp hc
    · rcases h.2 hp with h | h
      · exact h
      · rw [h] at hc; exact absurd hc (by decide)
  split
  · wp; exact key
  · wp; exact fun _ _ => key

theorem sets_labelled (w : Bytes) (d : Dec) : Post (labelled p w) (fun _ d' => Sets d') d := by
  have assign : ∀ ty v x, Post (labelAssign p ty w v x) (fun _ d' => d'.tMask ≠ 0) d := by
    intro ty v x
    unfold labelAssign
    split <;> wp
    · decide
    · split <;> simp
    · decide
    · decide
    · decide
    · exact ⟨fun _ _ _ => by decide, fun _ => by decide⟩
    · unfold labelJulian
      wp
      intro _ _ _
      refine ⟨fun _ _ _ _ _ => ?_, fun _ => by decide⟩
      show (14 ||| 31744 : Nat) ≠ 0
      decide
    · refine Post.any fun _ d' h => ?_
      rw [ne_eq, Decidable.not_not] at h
      omega
  unfold labelled
  wp
  intro _ _ _ _
  exact (assign _ _ _).mono fun _ _ h _ => h

theorem sets_number (w : Bytes) (s : Dec × Unit) :
    Post (numberToken p plainLook w order) (fun _ s' => Sets s'.1) s := by
  have field : ∀ d : Dec, Post (onNum (decodeNumberField w s.1.fMask)) (fun _ d' => Sets d') d := by
    intro d
    unfold onNum
    rw [Post.zoom]
    exact (numberField_sets w _ _).mono fun _ n h _ => by show n.tMask ≠ 0; omega
  unfold numberToken
  wp
  refine ⟨fun _ => sets_labelled w s.1, fun _ => ⟨fun hc => sets_date w s ?_, fun h1 => ⟨fun _ => field s.1,
    fun h2 => ⟨fun _ => field s.1, fun _ => ?_⟩⟩⟩⟩
  · intro h10
    have := hc.2.1
    have e : s.1.fMask &&& 10 &&& 4 = s.1.fMask &&& 10 &&& 4 := rfl
    have h : s.1.fMask &&& 14 &&& 10 = s.1.fMask &&& 10 := by rw [Nat.and_assoc]; rfl
    rw [this, h10] at h
    exact absurd h (by decide)
  · unfold onNum
    rw [Post.zoom]
    refine (number_sets false ?_ _).mono fun _ _ h _ => h
    by_cases hd : dotPos w = w.length
    · exact Or.inl hd
    · right
      exact Nat.le_of_not_lt fun h => h2 ⟨hd, h⟩

/-- The labels are not numbers. -/
theorem label_number {w : Bytes} {ty : TokenType} {v : Int} (h : tokenResult (lookupIn dateTable w) = (ty, v))
    (hty : ty = .units ∨ ty = .isotime) : TokenField.ofInt v ≠ .ok .number := by
  cases hl : lookupIn dateTable w with
  | none => rw [hl] at h; cases h; rcases hty with h | h <;> cases h
  | some e =>
    rw [hl] at h
    have hm := ((lookupIn_some dateTable_sorted w e).1 hl).1
    have ht : dateTable.all (fun e => decide (e.ty = .units ∨ e.ty = .isotime → TokenField.ofInt e.value ≠ .ok .number)) = true := by
      decide +kernel
    cases h
    exact of_decide_eq_true (List.all_eq_true.1 ht e hm) hty

theorem mask_ne (ty : TokenType) : ty.mask ≠ 0 := by cases ty <;> decide

theorem sets_action {w : Bytes} {ty : TokenType} {v : Int} (h : tokenResult (lookupIn dateTable w) = (ty, v)) (d : Dec) :
    Post (wordAction ftypes i ty v) (fun _ d' => Sets d') d := by
  unfold wordAction
  rw [Post.bind, Post.mod]
  split
  · unfold reservedWord
    wp
    intro a _
    split <;> wp
    all_goals first | exact fun _ => mask_ne _ | exact fun _ => (by show (31744 ||| 32 : Nat) ≠ 0; decide)
  · unfold monthWord
    rw [Post.mod]
    dsimp only
    split
    · exact fun _ => (by show (8 : Nat) ≠ 0; decide)
    · exact fun _ => mask_ne _
  · rw [Post.mod]; exact fun _ => mask_ne _
  · rw [Post.mod]; exact fun _ => mask_ne _
  · rw [Post.mod]; exact fun _ => mask_ne _
  · wp
    intro f hf hp
    exact absurd (by rw [hf]; exact congrArg _ hp) (label_number h (Or.inl rfl))
  · unfold isoTimeWord
    wp
    intro _
    split
    · wp
    · wp
      intro _ f hf hp
      exact absurd (by rw [hf]; exact congrArg _ hp) (label_number h (Or.inr rfl))
  · wp

theorem sets_word (w : Bytes) (s : Dec × Unit) :
    Post (wordToken plainLook ftypes i w) (fun b s' => (b = true → s' = s) ∧ (b = false → Sets s'.1)) s := by
  unfold wordToken
  rw [Post.bind, Post.look]
  rcases hr : tokenResult (lookupIn dateTable w) with ⟨ty, v⟩
  dsimp only
  wp
  refine ⟨fun _ h => (by cases h), fun _ => (sets_action hr s.1).mono fun _ _ h => ⟨fun h => (by cases h), fun _ => h⟩⟩

theorem sets_time (w : Bytes) (d : Dec) : Post (timeToken w) (fun _ d' => Sets d') d := by
  unfold timeToken onTime
  wp
  intro _
  rw [Post.zoom]
  exact (decodeTime_mask w _ _).mono fun _ t h _ _ => by show t.tMask ≠ 0; rw [h]; decide

/-- `Added` is an invariant. -/
theorem field_added (f : Field) (s : Dec × Unit) (h : Added s.1) : Post (dateTimeField p plainLook order ftypes i f)
    (fun _ s' => Added s'.1) s := by
  have step : ∀ d : Dec, Sets d → Post addMask (fun _ d' => Added d') d := by
    intro d h
    rw [addMask_post]
    exact fun _ => ⟨Bits.right _ _, fun hp => Or.inl (h hp)⟩
  unfold dateTimeField
  split <;> wp
  · exact (sets_dateToken f.2 s h).mono fun _ s' h => step _ h
  · exact (sets_time f.2 s.1).mono fun _ d' h => step _ h
  · exact (sets_number f.2 s).mono fun _ s' h => step _ h
  · exact (sets_word f.2 s).mono fun b s' hs => ⟨fun hb => by rw [hs.1 hb]; exact h, fun hb => step _ (hs.2 (by simpa using hb))⟩
  · exact (sets_word f.2 s).mono fun b s' hs => ⟨fun hb => by rw [hs.1 hb]; exact h, fun hb => step _ (hs.2 (by simpa using hb))⟩

/-- A date of one field completes the date. -/
theorem date_claims {w : Bytes} {c : Nat} {r : Bytes} (hw : w = c :: r) (s : Dec × Unit)
    (h : Added s.1) : Post (dateTimeField p plainLook order ftypes i (.date, w))
      (fun _ s' => s'.1.fMask &&& 14 = 14 ∧ s.1.fMask &&& 14 ≠ 14) s := by
  subst hw
  unfold dateTimeField dateToken
  wp
  intro _
  refine ⟨fun hc' => ?_, fun h10 => ?_⟩
  · intro _ hp
    rw [addMask_post]
    intro hm
    exfalso
    rw [ne_eq, Decidable.not_not] at hp
    rcases hc' with h' | h'
    · exact h' hp
    · rcases h.2 hp with h1 | h1
      · refine h1 (Nat.eq_of_testBit_eq fun k => ?_)
        rw [Nat.zero_testBit]
        cases ht : s.1.tMask.testBit k with
        | false => rfl
        | true => have := bits_apart hm k ht; rw [h.1 k ht] at this; cases this
      · rw [h1] at h'; exact absurd h' (by decide)
  · refine ((date_mask _ s).and (frame_date _ s)).mono fun _ s' hs => ?_
    rw [addMask_post]
    intro _
    refine ⟨?_, fun h14 => h10 (Or.inr ?_)⟩
    · show (s'.1.fMask ||| s'.1.tMask) &&& 14 = 14
      rw [hs.2.1]; exact hs.1.1
    · rw [show (10 : Nat) = 14 &&& 10 from rfl, ← Nat.and_assoc, h14]

/-- The date stays complete. -/
theorem bits_and {a b : Nat} (h : Bits a b) (ha : a &&& 14 = 14) : b &&& 14 = 14 := by
  refine Nat.eq_of_testBit_eq fun k => ?_
  rw [Nat.testBit_and]
  cases hk : (14 : Nat).testBit k with
  | false => simp
  | true =>
    have := congrArg (fun n => n.testBit k) ha
    simp only [Nat.testBit_and, hk, Bool.and_true] at this
    rw [h k this]; rfl

end Pg
