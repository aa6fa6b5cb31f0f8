import Verif.Lemmas.Replace

/-!
# The era that a text names
-/

namespace Pg
open Spec

variable {p : Profile} {order : DateOrder} {ftypes : List TokenField} {i : Nat}

theorem field_bcSame {f : Field} (hn : f.1 = .string ∨ f.1 = .special → (tokenResult (lookupIn dateTable f.2)).1 ≠ .adbc) (s : Dec × Unit) :
    Post (dateTimeField p plainLook order ftypes i f) (fun _ s' => s'.1.bc = s.1.bc) s := by
  have add : ∀ d : Dec, d.bc = s.1.bc → Post addMask (fun _ d' => d'.bc = s.1.bc) d := by
    intro d h
    rw [addMask_post]
    exact fun _ => h
  have date : ∀ w, Post (decodeDate plainLook w order) (fun _ s' => s'.1.bc = s.1.bc) s := by
    intro w
    unfold decodeDate
    rw [Post.zoom]
    exact Post.any fun _ _ => rfl
  have num : ∀ {α : Type} (m : St NumS α), Post (onNum m) (fun _ d' => d'.bc = s.1.bc) s.1 := by
    intro α m
    unfold onNum
    rw [Post.zoom]
    exact Post.any fun _ _ => rfl
  have word : f.1 = .string ∨ f.1 = .special → Post (wordToken plainLook ftypes i f.2) (fun b s' => (b = true → s'.1.bc = s.1.bc) ∧
      (¬ b = true → Post addMask (fun _ d => d.bc = s.1.bc) s'.1)) s := by
    intro hw
    unfold wordToken
    rw [Post.bind, Post.look]
    dsimp only
    rw [Post.ite]
    refine ⟨fun _ => by rw [Post.pure]; exact ⟨fun _ => rfl, fun h => absurd rfl h⟩, fun _ => ?_⟩
    rw [Post.bind, Post.noLook]
    suffices ∀ ty v, tokenResult (lookupIn dateTable f.2) = (ty, v) → Post (wordAction ftypes i ty v) (fun _ d' => d'.bc = s.1.bc) s.1 from
      (this _ _ rfl).mono fun _ _ k => by rw [Post.pure]; exact ⟨fun e => (by cases e), fun _ => add _ k⟩
    intro ty v he
    have hne : ty ≠ .adbc := fun h => hn hw (by rw [he]; exact h)
    unfold wordAction
    rw [Post.bind, Post.mod]
    split
    · unfold reservedWord
      wp
      intro a _
      split <;> wp
    · unfold monthWord
      rw [Post.mod]
      dsimp only
      split <;> rfl
    · rw [Post.mod]
    · exact absurd rfl hne
    · rw [Post.mod]
    · wp
    · unfold isoTimeWord
      wp
      intro _
      split
      · wp
      · wp
    · wp
  unfold dateTimeField
  split
  · rw [Post.bind]
    suffices Post (dateToken p plainLook f.2 order) (fun _ s' => s'.1.bc = s.1.bc) s from
      this.mono fun _ s' k => by rw [Post.noLook]; exact add _ k
    unfold dateToken
    wp
    intro _
    refine ⟨fun _ => ?_, fun _ => date f.2⟩
    split
    · rw [Post.pure]
    · wp
  · rw [Post.bind, Post.noLook]
    suffices Post (timeToken f.2) (fun _ d' => d'.bc = s.1.bc) s.1 from this.mono fun _ d' k => by rw [Post.noLook]; exact add _ k
    unfold timeToken onTime
    wp
    intro _
    rw [Post.zoom]
    exact Post.any fun _ _ _ => rfl
  · rw [Post.bind]
    suffices Post (numberToken p plainLook f.2 order) (fun _ s' => s'.1.bc = s.1.bc) s from
      this.mono fun _ s' k => by rw [Post.noLook]; exact add _ k
    unfold numberToken
    wp
    exact ⟨fun _ => labelled_bc f.2 s.1, fun _ => ⟨fun _ => date f.2, fun _ => ⟨fun _ => num _, fun _ => ⟨fun _ => num _, fun _ => num _⟩⟩⟩⟩
  · rename_i e
    wp
    exact word (Or.inl e)
  · rename_i e
    wp
    exact word (Or.inr e)
  · wp

theorem fieldT_bcSame {f : Field} (hn : f.1 = .string ∨ f.1 = .special → (tokenResult (lookupIn dateTable f.2)).1 ≠ .adbc) (s : Dec × Unit) :
    Post (timeOnlyField p plainLook order ftypes i f) (fun _ s' => s'.1.bc = s.1.bc) s := by
  have add : ∀ d : Dec, d.bc = s.1.bc → Post addMask (fun _ d' => d'.bc = s.1.bc) d := by
    intro d h
    rw [addMask_post]
    exact fun _ => h
  have date : ∀ w, Post (decodeDate plainLook w order) (fun _ s' => s'.1.bc = s.1.bc) s := by
    intro w
    unfold decodeDate
    rw [Post.zoom]
    exact Post.any fun _ _ => rfl
  have num : ∀ {α : Type} (m : St NumS α), Post (onNum m) (fun _ d' => d'.bc = s.1.bc) s.1 := by
    intro α m
    unfold onNum
    rw [Post.zoom]
    exact Post.any fun _ _ => rfl
  have word : f.1 = .string ∨ f.1 = .special → Post (wordTokenT plainLook ftypes i f.2) (fun b s' => (b = true → s'.1.bc = s.1.bc) ∧
      (¬ b = true → Post addMask (fun _ d => d.bc = s.1.bc) s'.1)) s := by
    intro hw
    unfold wordTokenT
    rw [Post.bind, Post.look]
    dsimp only
    rw [Post.ite]
    refine ⟨fun _ => by rw [Post.pure]; exact ⟨fun _ => rfl, fun h => absurd rfl h⟩, fun _ => ?_⟩
    rw [Post.bind, Post.noLook]
    suffices ∀ ty v, tokenResult (lookupIn dateTable f.2) = (ty, v) → Post (wordActionT ftypes i ty v) (fun _ d' => d'.bc = s.1.bc) s.1 from
      (this _ _ rfl).mono fun _ _ k => by rw [Post.pure]; exact ⟨fun e => (by cases e), fun _ => add _ k⟩
    intro ty v he
    have hne : ty ≠ .adbc := fun h => hn hw (by rw [he]; exact h)
    unfold wordActionT
    rw [Post.bind, Post.mod]
    split
    · unfold reservedWordT
      wp
      intro a _
      split <;> wp
    · rw [Post.mod]
    · exact absurd rfl hne
    · wp
    · unfold isoTimeWordT
      wp
      split
      · wp
      · wp
    · wp
  unfold timeOnlyField
  split
  · unfold dateTokenT
    rw [Post.bind, Post.ite]
    exact ⟨fun _ => (date _).mono fun _ s' k => by rw [Post.noLook]; exact add _ k, fun _ => by rw [Post.fail]; trivial⟩
  · wp
    unfold onTime
    rw [Post.zoom]
    exact Post.any fun _ _ => add _ rfl
  · rw [Post.bind]
    suffices Post (numberTokenT p plainLook order ftypes i f.2) (fun _ s' => s'.1.bc = s.1.bc) s from
      this.mono fun _ s' k => by rw [Post.noLook]; exact add _ k
    unfold numberTokenT
    wp
    exact ⟨fun _ => labelled_bc _ _, fun _ => ⟨fun _ => ⟨fun _ => date _, fun _ _ => num _⟩, fun _ => ⟨fun _ => num _, fun _ => num _⟩⟩⟩
  · rename_i h
    rw [Post.bind]
    exact (word (.inl h)).mono fun b s' k => by
      rw [Post.ite]
      exact ⟨fun c => by rw [Post.pure]; exact k.1 c, fun c => by rw [Post.noLook]; exact k.2 c⟩
  · rename_i h
    rw [Post.bind]
    exact (word (.inr h)).mono fun b s' k => by
      rw [Post.ite]
      exact ⟨fun c => by rw [Post.pure]; exact k.1 c, fun c => by rw [Post.noLook]; exact k.2 c⟩
  · wp

/-- The era has not been given, or the mask says that it has. -/
def EraSeen (d : Dec) : Prop := d.bc = true → d.fMask.testBit TokenType.adbc.code = true

theorem field_era {f : Field} (s : Dec × Unit) (hs : EraSeen s.1) : Post (dateTimeField p plainLook order ftypes i f) (fun _ s' => EraSeen s'.1) s := by
  by_cases h : (f.1 = .string ∨ f.1 = .special) ∧ (tokenResult (lookupIn dateTable f.2)).1 = .adbc
  · obtain ⟨f1, w⟩ := f
    obtain ⟨h1, h2⟩ := h
    have e : dateTimeField p plainLook order ftypes i (f1, w) = dateTimeField p plainLook order ftypes i (.string, w) := by
      rcases h1 with h1 | h1 <;> · cases h1; rfl
    rw [e]
    exact (word_claims (ty := .adbc) (Prod.ext h2 rfl) (Or.inr (Or.inl rfl)) s).mono fun _ _ k _ => k.1
  · exact ((field_mask f s).and (field_bcSame (fun h1 h2 => h ⟨h1, h2⟩) s)).mono fun _ _ k q => k.1.1 _ (hs (k.2 ▸ q))

theorem fieldT_era {f : Field} (s : Dec × Unit) (hs : EraSeen s.1) : Post (timeOnlyField p plainLook order ftypes i f) (fun _ s' => EraSeen s'.1) s := by
  by_cases h : (f.1 = .string ∨ f.1 = .special) ∧ (tokenResult (lookupIn dateTable f.2)).1 = .adbc
  · obtain ⟨f1, w⟩ := f
    obtain ⟨h1, h2⟩ := h
    have e : timeOnlyField p plainLook order ftypes i (f1, w) = timeOnlyField p plainLook order ftypes i (.string, w) := by
      rcases h1 with h1 | h1 <;> · cases h1; rfl
    rw [e]
    exact (word_claimsT (ty := .adbc) (Prod.ext h2 rfl) (Or.inr rfl) s).mono fun _ _ k _ => k.1
  · exact ((field_maskT f s).and (fieldT_bcSame (fun h1 h2 => h ⟨h1, h2⟩) s)).mono fun _ _ k q => k.1 _ (hs (k.2 ▸ q))

theorem loop_era : ∀ (l : List Field) (ft : List TokenField) (i : Nat) (s : Dec × Unit), EraSeen s.1 →
    Post (dateTimeLoop p plainLook order ft l i) (fun _ s' => EraSeen s'.1) s := fun l ft i s hs =>
  loop_all (I := EraSeen) (G := fun _ => True) (fun _ _ _ s _ hs => field_era s hs) l ft i s (fun _ _ => trivial) hs

theorem loopT_era : ∀ (l : List Field) (ft : List TokenField) (i : Nat) (s : Dec × Unit), EraSeen s.1 →
    Post (timeOnlyLoop p plainLook order ft l i) (fun _ s' => EraSeen s'.1) s := by
  intro l
  induction l with
  | nil => intro ft i s hs; rw [timeOnlyLoop, Post.pure]; exact hs
  | cons f l ih =>
    intro ft i s hs
    rw [timeOnlyLoop, Post.bind]
    exact (fieldT_era s hs).mono fun _ s' h => ih _ _ s' h

/-- The era has been given. -/
def EraIs (b : Bool) (d : Dec) : Prop := d.fMask.testBit TokenType.adbc.code = true ∧ d.bc = b

theorem field_eraKeeps {b : Bool} {f : Field} (s : Dec × Unit) (hs : EraIs b s.1) :
    Post (dateTimeField p plainLook order ftypes i f) (fun _ s' => EraIs b s'.1) s := by
  by_cases h : (f.1 = .string ∨ f.1 = .special) ∧ (tokenResult (lookupIn dateTable f.2)).1 = .adbc
  · obtain ⟨f1, w⟩ := f
    obtain ⟨h1, h2⟩ := h
    have e : dateTimeField p plainLook order ftypes i (f1, w) = dateTimeField p plainLook order ftypes i (.string, w) := by
      rcases h1 with h1 | h1 <;> · cases h1; rfl
    rw [e]
    exact (word_claims (ty := .adbc) (Prod.ext h2 rfl) (Or.inr (Or.inl rfl)) s).mono fun _ _ k => by rw [hs.1] at k; cases k.2
  · exact ((field_mask f s).and (field_bcSame (fun h1 h2 => h ⟨h1, h2⟩) s)).mono fun _ _ k => ⟨k.1.1 _ hs.1, k.2.trans hs.2⟩

theorem field_eraSet {b : Bool} {w : Bytes} (hw : tokenResult (lookupIn dateTable w) = (.adbc, if b then 1 else 0)) (s : Dec × Unit) :
    Post (dateTimeField p plainLook order ftypes i (.string, w)) (fun _ s' => EraIs b s'.1) s := by
  unfold dateTimeField wordToken
  simp only
  rw [Post.bind, Post.bind, Post.look, hw]
  dsimp only
  rw [if_neg (by decide), Post.bind]
  unfold wordAction
  wp
  refine ⟨fun h => (by cases h), fun _ => ?_⟩
  rw [addMask_post]
  exact fun hm => ⟨Bits.right _ _ _ (mask_bit _), by cases b <;> rfl⟩

theorem loop_eraIs {b : Bool} {w : Bytes} (hw : tokenResult (lookupIn dateTable w) = (.adbc, if b then 1 else 0)) : ∀ (l : List Field) (i : Nat) (s : Dec × Unit),
    (.string, w) ∈ l → Post (dateTimeLoop p plainLook order ftypes l i) (fun _ s' => s'.1.bc = b) s := by
  intro l
  induction l with
  | nil => intro i s h; cases h
  | cons f l ih =>
    intro i s h
    rw [dateTimeLoop, Post.bind]
    rcases List.mem_cons.1 h with rfl | h
    · exact (field_eraSet hw s).mono fun _ s' hs => (loop_all (I := EraIs b) (G := fun _ => True)
        (fun ft i f s _ hs => field_eraKeeps s hs) l ftypes _ s' (fun _ _ => trivial) hs).mono fun _ _ h => h.2
    · exact Post.any fun _ s' => ih _ s' h

theorem decode_eraIs {b : Bool} {w : Bytes} {l : List Field} (hw : tokenResult (lookupIn dateTable w) = (.adbc, if b then 1 else 0))
    (h : (.string, w) ∈ l) : Post (decodeDateTime p plainLook order l) (fun _ s' => s'.1.bc = b) ({}, ()) := by
  unfold decodeDateTime
  rw [Post.bind]
  refine (loop_eraIs hw l 0 _ h).mono fun _ s hs => ?_
  unfold finishFields
  wp
  simp only [hs, implies_true, and_self]

/-- A word of letters that no sign stands before is a field of the text. -/
theorem word_field {u : TokenField} {s w : Bytes} {w1 w2 : List Bytes} {l : List Field} (hw : words s = w1 ++ w :: w2) (m1 : Letters w) (m2 : w ≠ [])
    (hn : ∀ x ∈ w1, ¬ EndsInSign x) (hs : scan u s = .ok l) : (.string, lower w) ∈ l := by
  obtain ⟨a, c, rfl, k2, k3, k4, k5⟩ := a_word w1 hw
  unfold scan at hs
  split at hs
  · cases hs
  · obtain ⟨l1, l2, fu, ca, nf, rfl, hf, hl⟩ := scanLoop_within _ a _ _ _ k3 (noSign_of (by rw [k2]; exact hn)) (Nat.lt_succ_self _) hs
    refine List.mem_append_right _ ?_
    obtain ⟨b, r, rfl, h1, h2⟩ := word_scan (u := u) m1 m2 k4
    obtain ⟨-, ⟨l2, rfl, -⟩, -⟩ := scanLoop_oneWord (r := r) (r' := r) h1 h1 h2 h2 rfl fu ca nf _ hf hl
    exact List.mem_cons_self

theorem era_field {u : TokenField} {s : Bytes} {b : Bool} {l : List Field} (h : HasEra b s) (hs : scan u s = .ok l) :
    ∃ w, (.string, w) ∈ l ∧ tokenResult (lookupIn dateTable w) = (.adbc, if b then 1 else 0) := by
  obtain ⟨w1, w, w2, hw, he, hn⟩ := h
  have h2 : (if b then b!"bc" else b!"ad").map smallLetter = if b then b!"bc" else b!"ad" := by cases b <;> decide
  obtain ⟨k1, k2⟩ := small_alpha he h2 (by cases b <;> decide) (by cases b <;> decide)
  refine ⟨_, word_field hw k1 k2 hn hs, ?_⟩
  rw [lower_word he h2]
  cases b <;> decide +kernel

end Pg
