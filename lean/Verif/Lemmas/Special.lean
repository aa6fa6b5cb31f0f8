import Verif.Lemmas.Runs
import Verif.Props.ParsedRange

/-! # The words for infinity -/

namespace Pg
open Spec

variable {p : Profile} {order : DateOrder} {ftypes : List TokenField} {i : Nat}

/-! ## The kind of the value -/

/-- What a field that is not a word does to the kind of the value and the pending label. -/
def KindKept (d d' : Dec) : Prop :=
  d'.fMask = d.fMask ∧ (d.pType = .number → d'.pType = .number ∧ d'.dType = d.dType) ∧ (d'.dType = d.dType ∨ d'.dType = .date)

theorem KindKept.same {d d' : Dec} (h : d'.fMask = d.fMask) (hp : d'.pType = d.pType) (ht : d'.dType = d.dType) : KindKept d d' :=
  ⟨h, fun h => ⟨by rw [hp, h], ht⟩, Or.inl ht⟩

theorem kind_date (w : Bytes) (s : Dec × Unit) : Post (decodeDate plainLook w order) (fun _ s' => KindKept s.1 s'.1) s := by
  unfold decodeDate
  rw [Post.zoom]
  exact Post.any fun _ _ => KindKept.same rfl rfl rfl

theorem kind_num {α : Type} (m : St NumS α) (d : Dec) : Post (onNum m) (fun _ d' => KindKept d d') d := by
  unfold onNum
  rw [Post.zoom]
  exact Post.any fun _ _ => KindKept.same rfl rfl rfl

theorem kind_dateToken (w : Bytes) (s : Dec × Unit) :
    Post (dateToken p plainLook w order) (fun _ s' => KindKept s.1 s'.1) s := by
  unfold dateToken
  wp
  intro _
  refine ⟨fun _ => ?_, fun _ => kind_date w s⟩
  split
  · rw [Post.pure]; exact KindKept.same rfl rfl rfl
  · wp
    exact fun _ _ => KindKept.same rfl rfl rfl

theorem kind_labelled (str : Bytes) (d : Dec) (hd : d.pType ≠ .number) : Post (labelled p str) (fun _ d' => KindKept d d') d := by
  unfold labelled
  wp
  intro _ _ _ _
  exact (frame_assign _ _ _ _ d).mono fun _ _ h => ⟨h.1, fun h => absurd h hd, Or.inr rfl⟩

theorem kind_number (w : Bytes) (s : Dec × Unit) :
    Post (numberToken p plainLook w order) (fun _ s' => KindKept s.1 s'.1) s := by
  unfold numberToken
  wp
  exact ⟨fun h => kind_labelled w s.1 h, fun _ => ⟨fun _ => kind_date w s, fun _ => ⟨fun _ => kind_num _ s.1,
    fun _ => ⟨fun _ => kind_num _ s.1, fun _ => kind_num _ s.1⟩⟩⟩⟩

theorem kind_timeToken (w : Bytes) (d : Dec) : Post (timeToken w) (fun _ d' => KindKept d d') d := by
  unfold timeToken onTime
  wp
  intro _
  rw [Post.zoom]
  exact Post.any fun _ _ _ => ⟨rfl, fun _ => ⟨rfl, rfl⟩, Or.inl rfl⟩

theorem ofInt_value {v : Int} {f : TokenField} (h : TokenField.ofInt v = .ok f) : v = f.value := by
  unfold TokenField.ofInt at h
  split at h
  · cases h
  · split at h
    · rename_i g hg
      injection h with h
      subst h
      have key : ∀ n : Nat, n < 38 → ∀ g : TokenField, TokenField.all[n]? = some g → (n : Int) = g.value := by
        intro n hn g hg
        have : ∀ n : Nat, n < 38 → TokenField.all[n]?.all (fun g : TokenField => (n : Int) = g.value) = true := by decide
        have := this n hn
        rw [hg] at this
        simpa using this
      by_cases h38 : v.toNat < 38
      · rw [← key _ h38 _ hg]; omega
      · rw [List.getElem?_eq_none (by show 38 ≤ v.toNat; omega)] at hg; cases hg
    · cases h

/-- What a word does to the kind of the value. -/
structure ActionKind (ty : TokenType) (v : Int) (d d' : Dec) : Prop where
  mask : d'.fMask = d.fMask
  kind : d'.dType = d.dType ∨ d'.dType = .date ∨ (ty = .reserv ∧ v = d'.dType.value)
  label : ty ≠ .units → ty ≠ .isotime → d'.pType = d.pType
  special : ty = .reserv → v ≠ 16 → d'.tMask = 1 ∧ v = d'.dType.value
  plain : ty ≠ .reserv → d'.dType = d.dType

theorem kind_action (ty : TokenType) (v : Int) (d : Dec) :
    Post (wordAction ftypes i ty v) (fun _ d' => ActionKind ty v d d') d := by
  unfold wordAction
  rw [Post.bind, Post.mod]
  split
  · unfold reservedWord
    wp
    intro a ha
    split <;> wp
    · exact ⟨rfl, Or.inr (Or.inl rfl), fun _ _ => rfl, fun _ hv => absurd (ofInt_value ha) hv, fun h => absurd rfl h⟩
    · exact ⟨rfl, Or.inr (Or.inr ⟨rfl, ofInt_value ha⟩), fun _ _ => rfl, fun _ _ => ⟨rfl, ofInt_value ha⟩, fun h => absurd rfl h⟩
  · unfold monthWord
    rw [Post.mod]
    dsimp only
    split <;> exact ⟨rfl, Or.inl rfl, fun _ _ => rfl, fun h => by (cases h), fun _ => rfl⟩
  · rw [Post.mod]; exact ⟨rfl, Or.inl rfl, fun _ _ => rfl, fun h => by (cases h), fun _ => rfl⟩
  · rw [Post.mod]; exact ⟨rfl, Or.inl rfl, fun _ _ => rfl, fun h => by (cases h), fun _ => rfl⟩
  · rw [Post.mod]; exact ⟨rfl, Or.inl rfl, fun _ _ => rfl, fun h => by (cases h), fun _ => rfl⟩
  · wp
    exact fun _ _ => ⟨rfl, Or.inl rfl, fun h => absurd rfl h, fun h => by (cases h), fun _ => rfl⟩
  · unfold isoTimeWord
    wp
    intro _
    split
    · rw [Post.panic]; trivial
    · wp
      exact fun _ _ _ => ⟨rfl, Or.inl rfl, fun _ h => absurd rfl h, fun h => by (cases h), fun _ => rfl⟩
  · rw [Post.fail]; trivial

/-! ## Fields and words -/

/-- The entry of a field in the keyword table. -/
def Entry (f : Field) (ty : TokenType) (v : Int) : Prop :=
  (f.1 = .string ∨ f.1 = .special) ∧ tokenResult (lookupIn dateTable f.2) = (ty, v) ∧ ty ≠ .unknownField

theorem entry_word {s : Bytes} {f : Field} {ty : TokenType} {v : Int} (h : Entry f ty v) (hf : WordAt s f) :
    ∃ e ∈ dateTable, e.ty = ty ∧ e.value = v ∧ e.token = f.2.take 10 ∧
      ∃ w, (LetterRun w s ∧ f.2 = lower w) ∨ (MinusRun w s ∧ f.2 = 45 :: lower w) := by
  obtain ⟨h1, h2, h3⟩ := h
  cases he : lookupIn dateTable f.2 with
  | none => rw [he] at h2; cases h2; exact absurd rfl h3
  | some e =>
    rw [he] at h2
    cases h2
    have m1 : e ∈ dateTable := List.mem_of_find?_eq_some he
    have m2 : e.token = f.2.take 10 := by simpa using List.find?_some he
    refine ⟨e, m1, rfl, rfl, m2, ?_⟩
    have no43 : ∀ e ∈ dateTable, e.token.head? ≠ some 43 ∧ e.token ≠ [45] := by decide +kernel
    have hno := no43 e m1
    rcases hf h1 with (h | h) | ⟨w, h | h | h⟩
    · rw [m2, h] at hno; exact absurd rfl hno.1
    · rw [m2, h] at hno; exact absurd rfl hno.2
    · exact ⟨w, Or.inl h⟩
    · rw [m2, h] at hno; exact absurd rfl hno.1
    · exact ⟨w, Or.inr h⟩

theorem take_short {w t : Bytes} (h : t = w.take 10) (ht : t.length < 10) : w = t := by
  have : w.length ≤ 10 := by
    have := congrArg List.length h
    rw [List.length_take] at this
    omega
  rw [h, List.take_of_length_le this]

theorem lower_eq_small (w : Bytes) : lower w = w.map smallLetter := by
  unfold lower
  rw [show lowerB = smallLetter from funext lowerB_letter]

theorem late_word {s : Bytes} {f : Field} (h : Entry f .reserv 10) (hf : WordAt s f) :
    ∃ w, LetterRun w s ∧ SameButCase w b!"infinity" := by
  obtain ⟨e, he, h1, h2, h3, w, h4⟩ := entry_word h hf
  have tab : ∀ e ∈ dateTable, e.ty = .reserv → e.value = 10 → e.token = b!"infinity" := by decide +kernel
  have ht := tab e he h1 h2
  have := take_short h3 (by rw [ht]; decide)
  rw [ht] at this
  rcases h4 with ⟨h4, h5⟩ | ⟨h4, h5⟩
  · refine ⟨w, h4, ?_⟩
    unfold SameButCase
    rw [← lower_eq_small, ← h5, this]; decide
  · rw [this] at h5; cases h5

theorem early_word {s : Bytes} {f : Field} (h : Entry f .reserv 9) (hf : WordAt s f) :
    ∃ w, MinusRun w s ∧ SameButCase w b!"infinity" := by
  obtain ⟨e, he, h1, h2, h3, w, h4⟩ := entry_word h hf
  have tab : ∀ e ∈ dateTable, e.ty = .reserv → e.value = 9 → e.token = b!"-infinity" := by decide +kernel
  have ht := tab e he h1 h2
  have := take_short h3 (by rw [ht]; decide)
  rw [ht] at this
  rcases h4 with ⟨h4, h5⟩ | ⟨h4, h5⟩
  · exfalso
    obtain ⟨a, c, -, nw, hw, -, -⟩ := h4
    obtain ⟨b, w', rfl⟩ := List.exists_cons_of_ne_nil nw
    rw [this] at h5
    have hb := hw b (by simp)
    injection h5 with h5 _
    rw [lowerB_letter] at h5
    unfold Letter at hb
    unfold smallLetter at h5
    split at h5 <;> omega
  · refine ⟨w, h4, ?_⟩
    rw [this] at h5
    injection h5 with _ h5
    unfold SameButCase
    rw [← lower_eq_small]
    exact h5.symm.trans (by decide)

/-- The word of a field that is a label or the word for midnight. -/
theorem label_entry {s : Bytes} {f : Field} {ty : TokenType} {v : Int} (h : Entry f ty v) (hf : WordAt s f)
    (hty : ty = .units ∨ ty = .isotime) : Says labelWords s := by
  obtain ⟨e, he, h1, h2, h3, w, h4⟩ := entry_word h hf
  have tab : ∀ e ∈ dateTable, (e.ty = .units ∨ e.ty = .isotime) → e.token ∈ labelWords ∧ e.token.head? ≠ some 45 ∧
    e.token.map smallLetter = e.token := by decide +kernel
  obtain ⟨ht, hn, hs⟩ := tab e he (by rw [h1]; exact hty)
  rcases h4 with ⟨h4, h5⟩ | ⟨h4, h5⟩
  · refine ⟨w, h4, e.token, ht, ?_⟩
    unfold SameButCase
    rw [hs, h3, h5, lower_eq_small, List.map_take]
  · rw [h3, h5] at hn; exact absurd rfl hn

theorem midnight_word {s : Bytes} {f : Field} (h : Entry f .reserv 16) (hf : WordAt s f) : Says [b!"allballs"] s := by
  obtain ⟨e, he, h1, h2, h3, w, h4⟩ := entry_word h hf
  have tab : ∀ e ∈ dateTable, e.ty = .reserv → e.value = 16 → e.token = b!"allballs" := by decide +kernel
  have ht := tab e he h1 h2
  rcases h4 with ⟨h4, h5⟩ | ⟨h4, h5⟩
  · refine ⟨w, h4, e.token, by rw [ht]; simp, ?_⟩
    unfold SameButCase
    rw [h3, h5, lower_eq_small, List.map_take, ← List.map_take, List.map_map]
    congr 1
    funext b
    simp only [Function.comp_apply, smallLetter]
    repeat' split
    all_goals omega
  · rw [h3, h5] at ht; cases ht

/-! ## The loop -/

/-- An invariant of all fields of a text. -/
theorem loop_all {I : Dec → Prop} {G : Field → Prop}
    (h : ∀ ft i f s, G f → I s.1 → Post (dateTimeField p plainLook order ft i f) (fun _ s' => I s'.1) s) :
    ∀ (l : List Field) (ft : List TokenField) (i : Nat) (s : Dec × Unit), (∀ f ∈ l, G f) → I s.1 →
      Post (dateTimeLoop p plainLook order ft l i) (fun _ s' => I s'.1) s := by
  intro l
  induction l with
  | nil => intro ft i s _ hs; rw [dateTimeLoop, Post.pure]; exact hs
  | cons f l ih =>
    intro ft i s hl hs
    rw [dateTimeLoop, Post.bind]
    exact (h ft i f s (hl f (by simp)) hs).mono fun _ s' hs' => ih ft _ s' (fun g hg => hl g (by simp [hg])) hs'

/-- One field: what it does to the kind of the value. -/
theorem field_kind_cases (f : Field) (s : Dec × Unit) : Post (dateTimeField p plainLook order ftypes i f)
    (fun _ s' => (∃ d, KindKept s.1 d ∧ s'.1 = { d with fMask := d.fMask ||| d.tMask } ∧ ¬ (f.1 = .string ∨ f.1 = .special)) ∨
      (f.1 = .string ∨ f.1 = .special) ∧ ((s' = s ∧ (tokenResult (lookupIn dateTable f.2)).1 = .ignoreDtf) ∨ ∃ ty v d, Entry f ty v ∧ ActionKind ty v s.1 d ∧ d.tMask &&& d.fMask = 0 ∧
        s'.1 = { d with fMask := d.fMask ||| d.tMask })) s := by
  have step : ∀ d : Dec, KindKept s.1 d → ¬ (f.1 = .string ∨ f.1 = .special) → Post addMask
      (fun _ d' => (∃ e, KindKept s.1 e ∧ d' = { e with fMask := e.fMask ||| e.tMask } ∧ ¬ (f.1 = .string ∨ f.1 = .special)) ∨
      (f.1 = .string ∨ f.1 = .special) ∧ (((d', ()) = s ∧ (tokenResult (lookupIn dateTable f.2)).1 = .ignoreDtf) ∨ ∃ ty v d, Entry f ty v ∧ ActionKind ty v s.1 d ∧ d.tMask &&& d.fMask = 0 ∧
        d' = { d with fMask := d.fMask ||| d.tMask })) d := by
    intro d h hf
    rw [addMask_post]
    exact fun _ => Or.inl ⟨d, h, rfl, hf⟩
  have word : ∀ s0 : Dec × Unit, s0 = s → (f.1 = .string ∨ f.1 = .special) → Post (wordToken plainLook ftypes i f.2)
      (fun b s' => (b = true → s' = s ∧ (tokenResult (lookupIn dateTable f.2)).1 = .ignoreDtf) ∧ (b = false → ∃ ty v, Entry f ty v ∧ ActionKind ty v s.1 s'.1)) s0 := by
    rintro s0 rfl hf
    unfold wordToken
    rw [Post.bind, Post.look]
    dsimp only
    wp
    refine ⟨fun hi => ⟨fun _ => hi, fun h => by cases h⟩, fun _ => ?_⟩
    by_cases hu : (tokenResult (lookupIn dateTable f.2)).1 = .unknownField
    · rw [hu]; unfold wordAction; wp
    · exact (kind_action _ _ s0.1).mono fun _ _ h => ⟨fun h => (by cases h), fun _ => ⟨_, _, ⟨hf, rfl, hu⟩, h⟩⟩
  unfold dateTimeField
  split
  · rename_i e
    wp
    exact (kind_dateToken f.2 s).mono fun _ s' h => step s'.1 h (by rw [e]; decide)
  · rename_i e
    wp
    exact (kind_timeToken f.2 s.1).mono fun _ d' h => step d' h (by rw [e]; decide)
  · rename_i e
    wp
    exact (kind_number f.2 s).mono fun _ s' h => step s'.1 h (by rw [e]; decide)
  · rename_i e
    wp
    refine (word s rfl (Or.inl e)).mono fun b s' h => ⟨fun hb => Or.inr ⟨Or.inl e, Or.inl (h.1 hb)⟩, fun hb => ?_⟩
    obtain ⟨ty, v, h1, h2⟩ := h.2 (by simpa using hb)
    rw [addMask_post]
    exact fun hm => Or.inr ⟨Or.inl e, Or.inr ⟨ty, v, s'.1, h1, h2, hm, rfl⟩⟩
  · rename_i e
    wp
    refine (word s rfl (Or.inr e)).mono fun b s' h => ⟨fun hb => Or.inr ⟨Or.inr e, Or.inl (h.1 hb)⟩, fun hb => ?_⟩
    obtain ⟨ty, v, h1, h2⟩ := h.2 (by simpa using hb)
    rw [addMask_post]
    exact fun hm => Or.inr ⟨Or.inr e, Or.inr ⟨ty, v, s'.1, h1, h2, hm, rfl⟩⟩
  · wp

/-- The text says infinity if the value is infinite. -/
def NamedKind (s : Bytes) (d : Dec) : Prop :=
  (d.dType = .late → ∃ w, LetterRun w s ∧ SameButCase w b!"infinity") ∧
    (d.dType = .early → ∃ w, MinusRun w s ∧ SameButCase w b!"infinity")

theorem field_named {t : Bytes} {f : Field} (hf : WordAt t f) (s : Dec × Unit) (hs : NamedKind t s.1) :
    Post (dateTimeField p plainLook order ftypes i f) (fun _ s' => NamedKind t s'.1) s := by
  refine (field_kind_cases f s).mono fun _ s' h => ?_
  have same : ∀ d : Dec, d.dType = s.1.dType → NamedKind t d := by
    intro d h
    unfold NamedKind
    rw [h]; exact hs
  have date : ∀ d : Dec, d.dType = .date → NamedKind t d := by
    intro d h
    unfold NamedKind
    rw [h]
    exact ⟨fun h => (by cases h), fun h => by cases h⟩
  rcases h with ⟨d, h, e, -⟩ | ⟨-, ⟨rfl, -⟩ | ⟨ty, v, d, h1, h2, -, e⟩⟩
  · rw [e]
    rcases h.2.2 with h | h
    · exact same _ h
    · exact date _ h
  · exact hs
  · rw [e]
    rcases h2.kind with h | h | ⟨rfl, h⟩
    · exact same _ h
    · exact date _ h
    · refine ⟨fun h' => ?_, fun h' => ?_⟩
      · have h' : d.dType = .late := h'
        rw [h'] at h
        exact late_word (by rw [h] at h1; exact h1) hf
      · have h' : d.dType = .early := h'
        rw [h'] at h
        exact early_word (by rw [h] at h1; exact h1) hf

/-- After the word for the kind `k` of values. -/
def Late (k : TokenField) (d : Dec) : Prop := d.dType = k ∧ d.fMask.testBit 0 = true ∧ d.pType = .number

/-- No label and not the word for midnight. -/
def Unlabelled (f : Field) : Prop := ∀ ty v, Entry f ty v → ty ≠ .units ∧ ty ≠ .isotime ∧ ¬ (ty = .reserv ∧ v = 16)

theorem field_number {f : Field} (hf : Unlabelled f) (s : Dec × Unit) (hs : s.1.pType = .number) :
    Post (dateTimeField p plainLook order ftypes i f) (fun _ s' => s'.1.pType = .number) s := by
  refine (field_kind_cases f s).mono fun _ s' h => ?_
  rcases h with ⟨d, h, e, -⟩ | ⟨-, ⟨rfl, -⟩ | ⟨ty, v, d, h1, h2, -, e⟩⟩
  · rw [e]; exact (h.2.1 hs).1
  · exact hs
  · rw [e]
    obtain ⟨k1, k2, -⟩ := hf ty v h1
    exact (h2.label k1 k2).trans hs

theorem field_late {k : TokenField} {f : Field} (hf : Unlabelled f) (s : Dec × Unit) (hs : Late k s.1) :
    Post (dateTimeField p plainLook order ftypes i f) (fun _ s' => Late k s'.1) s := by
  obtain ⟨h1, h2, h3⟩ := hs
  refine (field_kind_cases f s).mono fun _ s' h => ?_
  rcases h with ⟨d, h, e, -⟩ | ⟨-, ⟨rfl, -⟩ | ⟨ty, v, d, k1, k2, hm, e⟩⟩
  · rw [e]
    obtain ⟨g1, g2⟩ := h.2.1 h3
    exact ⟨g2.trans h1, Bits.left _ _ 0 (by rw [h.1]; exact h2), g1⟩
  · exact ⟨h1, h2, h3⟩
  · rw [e]
    obtain ⟨u1, u2, u3⟩ := hf ty v k1
    by_cases hr : ty = .reserv
    · exfalso
      have := k2.special hr (fun hv => u3 ⟨hr, hv⟩)
      have := bits_apart hm 0 (by rw [this.1]; decide)
      rw [k2.mask, h2] at this
      cases this
    · exact ⟨(k2.plain hr).trans h1, Bits.left _ _ 0 (by rw [k2.mask]; exact h2), (k2.label u1 u2).trans h3⟩

/-- The words for infinity. -/
def infinityField : TokenField → Field
  | .early => (.special, b!"-infinity")
  | _ => (.string, b!"infinity")

theorem field_infinity {k : TokenField} (hk : k = .late ∨ k = .early) (s : Dec × Unit) (hs : s.1.pType = .number) :
    Post (dateTimeField p plainLook order ftypes i (infinityField k)) (fun _ s' => Late k s'.1) s := by
  have hE : tokenResult (lookupIn dateTable (infinityField k).2) = (.reserv, k.value) := by
    rcases hk with rfl | rfl <;> decide +kernel
  refine (field_kind_cases _ s).mono fun _ s' h => ?_
  rcases h with ⟨d, h, e, hn⟩ | ⟨-, ⟨rfl, hi⟩ | ⟨ty, v, d, k1, k2, hm, e⟩⟩
  · exact absurd (by rcases hk with rfl | rfl <;> decide) hn
  · rw [hE] at hi; cases hi
  · have : (ty, v) = (.reserv, k.value) := k1.2.1.symm.trans hE
    cases this
    obtain ⟨g1, g2⟩ := k2.special rfl (by rcases hk with rfl | rfl <;> decide)
    rw [e]
    refine ⟨?_, Bits.right _ _ 0 (by rw [g1]; decide), (k2.label (by decide) (by decide)).trans hs⟩
    show d.dType = k
    revert g2
    rcases hk with rfl | rfl <;> cases d.dType <;> decide

end Pg
