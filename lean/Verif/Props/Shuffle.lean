import Verif.Lemmas.Shuffle
import Verif.Props.Special
import Verif.Props.Twice

/-!
# Property C99: clock time, weekday, era, `am`/`pm` and `at`/`on` may stand anywhere among the words of a date

`c` is the state of the thread's keyword caches, `u` the uninitialised type of a lone sign.
-/

namespace Pg
open Spec

theorem date_of_decoded {p : Profile} {u : TokenField} {c : Caches} (hc : c.Ok) {order : DateOrder} {s : Bytes} {v : Date}
    {l : List Field} {d : Dec} (h1 : scan u s = .ok l) (h2 : decodeDateTime p plainLook order l ({}, ()) = (.ok (), (d, ())))
    (h3 : Date.ofDec p d = .ok v) : Date.tryFromStr p u c s order = .ok v := by
  unfold Date.tryFromStr
  rw [(same_date p u order s c hc).1]
  unfold Date.tryFromStrW
  simp only [bind, St.bind, St.lift, h1, runLocal, h2, h3]

theorem timestamp_of_decoded {p : Profile} {u : TokenField} {c : Caches} (hc : c.Ok) {typmod : Int} {order : DateOrder} {s : Bytes}
    {v t : Timestamp} {l : List Field} {d : Dec} (h1 : scan u s = .ok l)
    (h2 : decodeDateTime p plainLook order l ({}, ()) = (.ok (), (d, ()))) (h3 : Timestamp.ofDec p d = .ok t)
    (h4 : t.adjustByTypmod p typmod = .ok v) : Timestamp.tryFromStr p u c s typmod order = .ok v := by
  unfold Timestamp.tryFromStr
  rw [(same_timestamp p u typmod order s c hc).1]
  unfold Timestamp.tryFromStrW
  simp only [bind, St.bind, St.lift, h1, runLocal, h2, h3, h4]

theorem joined_oneField {u : TokenField} {x : Bytes} (hx : JoinedDate x) (hu : NoUpper x) : OneField u x (.date, x) := by
  refine ⟨rfl, fun c hc => ?_⟩
  obtain ⟨b, r, w, e, h1, h2, -, h3⟩ := joined_scan u hx hc
  obtain rfl := h3 hu
  exact ⟨b, r, e, h1, h2⟩

open Classical in
/-- A word as a field. -/
noncomputable def fieldOf' (x : Bytes) : Field := if JoinedDate x ∧ NoUpper x then (.date, x) else fieldOf x

theorem fieldOf_type (x : Bytes) : (fieldOf x).1 ≠ .date := by
  unfold fieldOf
  split
  · intro h; cases h
  · split <;> (intro h; cases h)

theorem fieldOf'_plain {x : Bytes} (h : ∀ u, OneField u x (fieldOf x)) : fieldOf' x = fieldOf x := by
  unfold fieldOf'
  split
  · rename_i hx
    exfalso
    obtain ⟨b, r, e, -, h1⟩ := (h .number).2 [] (Or.inl rfl)
    obtain ⟨b', r', e', -, h2⟩ := (joined_oneField (u := .number) hx.1 hx.2).2 [] (Or.inl rfl)
    rw [e] at e'
    cases e'
    rw [h1] at h2
    exact fieldOf_type x (congrArg Prod.fst (congrArg Prod.fst (Res.ok.inj h2)))
  · rfl

theorem word_oneField (p : Profile) (order : DateOrder) {w : Bytes} (h : Floating w ∨ Anchored w) :
    (∀ u, OneField u w (fieldOf w)) ∧ ∃ a : Act, (Floating w → a.Loose) ∧ Does p order (fieldOf w) a := by
  by_cases hf : Floating w
  · obtain ⟨h1, a, h2, h3⟩ := floating_does p order hf
    exact ⟨h1, a, fun _ => h2, h3⟩
  · obtain ⟨h1, a, h2⟩ := anchored_does p order (h.resolve_left hf)
    exact ⟨h1, a, fun h => absurd h hf, h2⟩

/-- The words of a date that starts with the date in one word, or has none. -/
def Leads (pre : List Bytes) : Prop := pre = [] ∨ ∃ D, pre = [D] ∧ JoinedDate D ∧ NoUpper D

theorem okDec_bind {m : St (Dec × Unit) Unit} {f g : St (Dec × Unit) Unit} {s : Dec × Unit}
    (h : ∀ d, m s = (.ok (), (d, ())) → okDec (f (d, ())) = okDec (g (d, ()))) :
    okDec ((do m; f : St (Dec × Unit) Unit) s) = okDec ((do m; g : St (Dec × Unit) Unit) s) := by
  simp only [bind, St.bind]
  cases hm : m s with
  | mk r t =>
    cases r with
    | ok x => exact h t.1 hm
    | err _ => rfl
    | panic => rfl

/-- The loop over the fields does not see the order. -/
theorem moved_loop {p : Profile} {order : DateOrder} {pre l l' : List Bytes} (hp : Leads pre) (hl : ∀ w ∈ l, Floating w ∨ Anchored w)
    (hm : Moved l l') (ft ft' : List TokenField) :
    okDec (dateTimeLoop p plainLook order ft ((pre ++ l).map fieldOf') 0 ({}, ())) =
      okDec (dateTimeLoop p plainLook order ft' ((pre ++ l').map fieldOf') 0 ({}, ())) := by
  have hl' : ∀ w ∈ l', Floating w ∨ Anchored w := fun w hw => hl w ((Moved.perm hm).symm.subset hw)
  classical
  have hG : ∀ w, Floating w ∨ Anchored w → ∃ a : Act, (Floating w → a.Loose) ∧ Does p order (fieldOf' w) a := by
    intro w hw
    obtain ⟨h1, a, h2, h3⟩ := word_oneField p order hw
    exact ⟨a, h2, by rw [fieldOf'_plain h1]; exact h3⟩
  let G : Bytes → Act := fun w => if h : Floating w ∨ Anchored w then Classical.choose (hG w h) else ⟨fun _ _ _ => none⟩
  have G1 : ∀ w, Floating w → (G w).Loose := by
    intro w hw
    simp only [G, dif_pos (Or.inl hw : Floating w ∨ Anchored w)]
    exact (Classical.choose_spec (hG w (Or.inl hw))).1 hw
  have G2 : ∀ w, Floating w ∨ Anchored w → Does p order (fieldOf' w) (G w) := by
    intro w hw
    simp only [G, dif_pos hw]
    exact (Classical.choose_spec (hG w hw)).2
  have all : ∀ l : List Bytes, (∀ w ∈ l, Floating w ∨ Anchored w) → List.Forall₂ (Does p order) (l.map fieldOf') (l.map G) := by
    intro l hl
    induction l with
    | nil => exact .nil
    | cons w l ih => exact .cons (G2 w (hl w (by simp))) (ih fun w hw => hl w (by simp [hw]))
  have tail : ∀ i d, d.pType = .number → okDec (dateTimeLoop p plainLook order ft (l.map fieldOf') i (d, ())) =
      okDec (dateTimeLoop p plainLook order ft' (l'.map fieldOf') i (d, ())) := by
    intro i d hd
    rw [loop_runs (all l hl) i d hd, loop_runs (all l' hl') i d hd, moved_runs G1 hm]
  rcases hp with rfl | ⟨D, rfl, hD, hU⟩
  · exact tail 0 _ rfl
  · have e : fieldOf' D = (.date, D) := by unfold fieldOf'; rw [if_pos ⟨hD, hU⟩]
    simp only [List.cons_append, List.nil_append, List.map_cons, e, dateTimeLoop]
    have same : dateTimeField p plainLook order ft 0 (.date, D) = dateTimeField p plainLook order ft' 0 (.date, D) := rfl
    rw [same]
    refine okDec_bind fun d hd => tail 1 d ?_
    have : Post (dateTimeField p plainLook order ft' 0 (.date, D)) (fun _ s' => s'.1.pType = .number) ({}, ()) := by
      unfold dateTimeField dateToken
      wp
      intro _
      refine ⟨fun h => absurd h (by decide), fun _ => (date_mask D _).mono fun _ s' h => ?_⟩
      rw [addMask_post]
      exact fun _ => h.2
    exact this _ _ hd

theorem no_words {p : Profile} {order : DateOrder} {d : Dec} : decodeDateTime p plainLook order [] ({}, ()) ≠ (.ok (), (d, ())) := by
  intro h
  cases p <;> cases h

/-- One text decoded gives the other decoded. -/
theorem moved_decode {p : Profile} {order : DateOrder} {u : TokenField} {s t : Bytes} {pre l l' : List Bytes} (hp : Leads pre)
    (hs : words s = pre ++ l) (ht : words t = pre ++ l') (hl : ∀ w ∈ l, Floating w ∨ Anchored w) (hm : Moved l l') {fs : List Field}
    {d : Dec} (h1 : scan u s = .ok fs) (h2 : decodeDateTime p plainLook order fs ({}, ()) = (.ok (), (d, ()))) :
    ∃ gs d', scan u t = .ok gs ∧ decodeDateTime p plainLook order gs ({}, ()) = (.ok (), (d', ())) ∧ d'.rest = d.rest := by
  have hl' : ∀ w ∈ l', Floating w ∨ Anchored w := fun w hw => hl w ((Moved.perm hm).symm.subset hw)
  have one : ∀ l : List Bytes, (∀ w ∈ l, Floating w ∨ Anchored w) → ∀ w ∈ pre ++ l, OneField u w (fieldOf' w) := by
    intro l hl w hw
    rcases List.mem_append.1 hw with hw | hw
    · rcases hp with rfl | ⟨D, rfl, hD, hU⟩
      · cases hw
      · obtain rfl : w = D := by simpa using hw
        unfold fieldOf'
        rw [if_pos ⟨hD, hU⟩]
        exact joined_oneField hD hU
    · have := (word_oneField p order (hl w hw)).1
      rw [fieldOf'_plain this]
      exact this u
  have perm : (pre ++ l).Perm (pre ++ l') := (Moved.perm hm).append_left pre
  have len := perm.length_eq
  have sum : ((pre ++ l).map List.length).sum = ((pre ++ l').map List.length).sum := (perm.map _).sum_eq
  have ne : s ≠ [] ∧ scanLoop u (s.length + 1) s 128 0 = .ok fs := by
    unfold scan at h1
    split at h1
    · cases h1
    · rename_i h; exact ⟨by simpa using h, h1⟩
  rcases (scanLoop_fields (pre ++ l) s _ _ _ hs (one l hl) (Nat.lt_succ_self _) fs).1 ne.2 with ⟨rfl, h3, h4⟩ | ⟨rfl, -⟩
  · by_cases hnil : pre ++ l = []
    · rw [hnil] at h2
      exact (no_words h2).elim
    · have hnil' : pre ++ l' ≠ [] := fun h => hnil (by rw [h] at len; exact List.length_eq_zero_iff.1 len)
      have ht0 : t ≠ [] := by
        rintro rfl
        exact hnil' (by rw [← ht]; rfl)
      obtain ⟨d', h5, h6⟩ := decode_rest (gs := (pre ++ l').map fieldOf') (moved_loop hp hl hm _ _) h2
      refine ⟨_, d', ?_, h5, h6⟩
      unfold scan
      rw [if_neg (by simpa using ht0)]
      exact (scanLoop_fields (pre ++ l') t _ _ _ ht (one l' hl') (Nat.lt_succ_self _) _).2
        (Or.inl ⟨rfl, by rw [← sum]; exact h3, by rw [← len]; exact h4⟩)
  · exact (no_words h2).elim

theorem ofDec_rest {p : Profile} {d d' : Dec} (h : d'.rest = d.rest) :
    Date.ofDec p d' = Date.ofDec p d ∧ Timestamp.ofDec p d' = Timestamp.ofDec p d :=
  ⟨(show Date.ofDec p d' = Date.ofDec p d'.rest from rfl).trans (by rw [h]; rfl),
    (show Timestamp.ofDec p d' = Timestamp.ofDec p d'.rest from rfl).trans (by rw [h]; rfl)⟩

/-! ## Before a date in one word -/

theorem scan_before {k k' : Mark} {u : TokenField} {s : Bytes} {w1 w2 w3 : List Bytes} {x y : Bytes}
    (hw : words s = w1 ++ x :: (w2 ++ y :: w3)) (hx : k.Is x) (hy : k'.Is y) (n1 : ∀ w ∈ w1, ¬ EndsInSign w)
    (n2 : ∀ w ∈ w2, ¬ EndsInSign w) {l : List Field} (hs : scan u s = .ok l) :
    ∃ l1 f l2 g l3, l = l1 ++ f :: (l2 ++ g :: l3) ∧ Mark.Field k f ∧ Mark.Field k' g := by
  obtain ⟨a, c, rfl, k2, k3, k4, k5⟩ := a_word w1 hw
  obtain ⟨a', c', rfl, m2, m3, m4, m5⟩ := a_word w2 k5
  unfold scan at hs
  split at hs
  · cases hs
  · obtain ⟨l1, l2, fu, ca, nf, rfl, hf, hl⟩ := scanLoop_within _ a _ _ _ k3 (noSign_of (by rw [k2]; exact n1)) (Nat.lt_succ_self _) hs
    obtain ⟨f, l', fu', ca', nf', rfl, hF, hf', hl'⟩ := scanLoop_mark hx k4 hf hl
    obtain ⟨l1', l2', fu, ca, nf, rfl, hf, hl⟩ := scanLoop_within _ a' _ _ _ m3 (noSign_of (by rw [m2]; exact n2)) hf' hl'
    obtain ⟨g, l'', _, _, _, rfl, hG, _, _⟩ := scanLoop_mark hy m4 hf hl
    exact ⟨l1, f, l1', g, l'', rfl, hF, hG⟩

/-- A date in one word wants nothing before it but a date's own parts. -/
theorem decodeDate_alone {w : Bytes} {order : DateOrder} {n : Nat} (hn : Nat.testBit 4294934495 n = true) (hn' : Nat.testBit 14 n = false)
    (s : Dec × Unit) (h : s.1.fMask.testBit n = true) : Post (decodeDate plainLook w order) (fun _ _ => False) s := by
  unfold decodeDate
  rw [Post.zoom]
  unfold dateBody
  wp
  intro a _
  refine (textPass_mask s.1.fMask a 0 _ (by unfold DateMask; simp)).mono fun r t ht => ?_
  refine (numPass_mask s.1.fMask r t.1 ht).mono fun _ t ht => ?_
  intro hm
  unfold DateMask at ht
  rw [ne_eq, Decidable.not_not] at hm
  have := congrArg (fun x => Nat.testBit x n) hm
  simp only [Nat.testBit_and, hn, ht, Nat.testBit_or, h, Bool.true_or, Bool.true_and] at this
  exact absurd (this.trans hn') (by decide)

theorem decode_before {p : Profile} {order : DateOrder} {k : Mark} (hk : k = .clock ∨ k = .weekday ∨ k = .meridiem ∨ k = .era)
    {f g : Field} (hf : Mark.Field k f) (hg : Mark.Field .date g) (l1 l2 l3 : List Field) (c : Unit) :
    Post (decodeDateTime p plainLook order (l1 ++ f :: (l2 ++ g :: l3))) (fun _ _ => False) ({}, c) := by
  unfold decodeDateTime
  rw [Post.bind]
  suffices ∀ ft, Post (dateTimeLoop p plainLook order ft (l1 ++ f :: (l2 ++ g :: l3)) 0) (fun _ _ => False) ({}, c) from
    (this _).mono fun _ _ h => h.elim
  intro ft
  obtain ⟨g1, g2⟩ := g
  obtain ⟨rfl, hn⟩ : g1 = .date ∧ g2 ≠ [] := hg
  obtain ⟨x, r, rfl⟩ := List.exists_cons_of_ne_nil hn
  have go : ∀ n, Nat.testBit 4294934495 n = true → Nat.testBit 14 n = false →
      (∀ ft i (s : Dec × Unit), Post (dateTimeField p plainLook order ft i f) (fun _ s' => s'.1.fMask.testBit n = true) s) →
      Post (dateTimeLoop p plainLook order ft (l1 ++ f :: (l2 ++ (.date, x :: r) :: l3)) 0) (fun _ _ => False) ({}, c) := by
    intro n hn hn' hx
    refine @loop_twice (fun ft i f => dateTimeField p plainLook order ft i f) (fun ft l i => dateTimeLoop p plainLook order ft l i)
      (fun _ _ _ _ => rfl) Added (fun d => Added d ∧ d.fMask.testBit n = true) (fun _ _ f s h => field_added f s h)
      (fun _ _ f s h => ((field_added f s h.1).and (field_mask f s)).mono fun _ _ h' => ⟨h'.1, h'.2.1 n h.2⟩) _ _
      (fun ft i s h => ((field_added f s h).and (hx ft i s)).mono fun _ _ h => h)
      (fun _ _ s _ h => date_field_never rfl s h.1 (decodeDate_alone hn hn' s h.2)) _ _ _ _ _ _ ?_
    exact ⟨Bits.refl _, fun _ => Or.inr rfl⟩
  obtain ⟨f1, f2⟩ := f
  rcases hk with rfl | rfl | rfl | rfl
  · obtain rfl : f1 = .time := hf
    exact go 10 (by decide) (by decide) fun _ _ s => (clock_claims f2 s).mono fun _ _ h => h.1
  · obtain ⟨rfl, v, hv⟩ : f1 = .string ∧ ∃ v, tokenResult (lookupIn dateTable f2) = (.dow, v) := hf
    exact go _ (by decide) (by decide) fun _ _ s => (word_claims hv (Or.inr (Or.inr rfl)) s).mono fun _ _ h => h.1
  · obtain ⟨rfl, v, hv⟩ : f1 = .string ∧ ∃ v, tokenResult (lookupIn dateTable f2) = (.ampm, v) := hf
    exact go _ (by decide) (by decide) fun _ _ s => (word_claims hv (Or.inl rfl) s).mono fun _ _ h => h.1
  · obtain ⟨rfl, v, hv⟩ : f1 = .string ∧ ∃ v, tokenResult (lookupIn dateTable f2) = (.adbc, v) := hf
    exact go _ (by decide) (by decide) fun _ _ s => (word_claims hv (Or.inr (Or.inl rfl)) s).mono fun _ _ h => h.1

end Pg

namespace Props
open Pg Spec

/-- **C99, dates.** Two texts of the same words: first possibly a date in one word (without capital letters), then month names,
numbers of at most five digits, clock times, weekdays, `am`/`pm`, `ad`/`bc`, and `at`/`on`. If they differ only in where the
clock times, weekdays, `am`/`pm`, `ad`/`bc`, `at`/`on` stand, then they mean the same date, or neither is accepted. -/
theorem C99_date (p : Profile) (u : TokenField) (c : Caches) (hc : c.Ok) (order : DateOrder) (s t : Bytes) (pre l l' : List Bytes)
    (hp : pre = [] ∨ ∃ D, pre = [D] ∧ JoinedDate D ∧ ∀ b ∈ D, ¬ (65 ≤ b ∧ b ≤ 90)) (hs : words s = pre ++ l) (ht : words t = pre ++ l')
    (hl : ∀ w ∈ l, Floating w ∨ Anchored w) (hm : Moved l l') (v : Date) :
    Date.tryFromStr p u c s order = .ok v ↔ Date.tryFromStr p u c t order = .ok v := by
  have hp' : Leads pre := by
    rcases hp with h | ⟨D, h1, h2, h3⟩
    · exact Or.inl h
    · exact Or.inr ⟨D, h1, h2, fun b hb => by have := h3 b hb; simp [isUpper]; omega⟩
  have go : ∀ s t l l', words s = pre ++ l → words t = pre ++ l' → (∀ w ∈ l, Floating w ∨ Anchored w) → Moved l l' →
      Date.tryFromStr p u c s order = .ok v → Date.tryFromStr p u c t order = .ok v := by
    intro s t l l' hs ht hl hm h
    obtain ⟨fs, d, h1, h2, h3⟩ := date_decoded hc h
    obtain ⟨gs, d', h4, h5, h6⟩ := moved_decode hp' hs ht hl hm h1 h2
    exact date_of_decoded hc h4 h5 ((ofDec_rest h6).1.trans h3)
  exact ⟨go s t l l' hs ht hl hm, go t s l' l ht hs (fun w hw => hl w ((Moved.perm hm).symm.subset hw)) hm.symm⟩

/-- **C99, timestamps.** -/
theorem C99_timestamp (p : Profile) (u : TokenField) (c : Caches) (hc : c.Ok) (typmod : Int) (order : DateOrder) (s t : Bytes)
    (pre l l' : List Bytes) (hp : pre = [] ∨ ∃ D, pre = [D] ∧ JoinedDate D ∧ ∀ b ∈ D, ¬ (65 ≤ b ∧ b ≤ 90)) (hs : words s = pre ++ l)
    (ht : words t = pre ++ l') (hl : ∀ w ∈ l, Floating w ∨ Anchored w) (hm : Moved l l') (v : Timestamp) :
    Timestamp.tryFromStr p u c s typmod order = .ok v ↔ Timestamp.tryFromStr p u c t typmod order = .ok v := by
  have hp' : Leads pre := by
    rcases hp with h | ⟨D, h1, h2, h3⟩
    · exact Or.inl h
    · exact Or.inr ⟨D, h1, h2, fun b hb => by have := h3 b hb; simp [isUpper]; omega⟩
  have go : ∀ s t l l', words s = pre ++ l → words t = pre ++ l' → (∀ w ∈ l, Floating w ∨ Anchored w) → Moved l l' →
      Timestamp.tryFromStr p u c s typmod order = .ok v → Timestamp.tryFromStr p u c t typmod order = .ok v := by
    intro s t l l' hs ht hl hm h
    obtain ⟨fs, d, x, h1, h2, h3, h7⟩ := timestamp_decoded hc h
    obtain ⟨gs, d', h4, h5, h6⟩ := moved_decode hp' hs ht hl hm h1 h2
    exact timestamp_of_decoded hc h4 h5 ((ofDec_rest h6).2.trans h3) h7
  exact ⟨go s t l l' hs ht hl hm, go t s l' l ht hs (fun w hw => hl w ((Moved.perm hm).symm.subset hw)) hm.symm⟩

/-- Texts that meet the hypotheses and are accepted. -/
example : words b!"8:30 Jan BC 8 pm 1999" = [] ++ [b!"8:30", b!"Jan", b!"BC", b!"8", b!"pm", b!"1999"] ∧
    words b!"Jan 8:30 8 BC 1999 pm" = [] ++ [b!"Jan", b!"8:30", b!"8", b!"BC", b!"1999", b!"pm"] ∧
    Moved [b!"8:30", b!"Jan", b!"BC", b!"8", b!"pm", b!"1999"] [b!"Jan", b!"8:30", b!"8", b!"BC", b!"1999", b!"pm"] ∧
    ∀ w ∈ [b!"8:30", b!"Jan", b!"BC", b!"8", b!"pm", b!"1999"], Floating w ∨ Anchored w := by
  have f1 : Floating b!"8:30" := Or.inl ⟨b!"8", b!"30", by decide, by decide, by unfold Digits; decide, by unfold Digit; decide⟩
  have f2 : Floating b!"BC" := Or.inr (Or.inr (Or.inr (Or.inl (Or.inr (by unfold SameButCase; decide)))))
  have f3 : Floating b!"pm" := Or.inr (Or.inr (Or.inl ⟨true, by unfold MeridiemWord SameButCase; decide⟩))
  have a1 : Anchored b!"Jan" := Or.inl ⟨1, b!"jan", by decide, by unfold SameButCase; decide⟩
  have a2 : Anchored b!"8" := Or.inr ⟨by decide, by unfold Digits; decide, by decide⟩
  have a3 : Anchored b!"1999" := Or.inr ⟨by decide, by unfold Digits; decide, by decide⟩
  refine ⟨by decide, by decide, ?_, ?_⟩
  · exact (Moved.swap _ _ _ f1).trans (.cons _ (.cons _ ((Moved.swap _ _ _ f2).trans (.cons _ (.cons _ (.swap _ _ _ f3))))))
  · intro w hw
    simp only [List.mem_cons, List.not_mem_nil, or_false] at hw
    rcases hw with rfl | rfl | rfl | rfl | rfl | rfl
    · exact Or.inl f1
    · exact Or.inr a1
    · exact Or.inl f2
    · exact Or.inr a2
    · exact Or.inl f3
    · exact Or.inr a3
example (p : Profile) :
    Timestamp.tryFromStr p .number Caches.new b!"8:30 Jan BC 8 pm 1999" (-1) .ymd = .ok ⟨-126163971000000000⟩ ∧
    Timestamp.tryFromStr p .number Caches.new b!"Jan 8:30 8 BC 1999 pm" (-1) .ymd = .ok ⟨-126163971000000000⟩ := by
  cases p <;> decide +kernel

/-- **C99, before a date in one word.** A clock time, a weekday, `am`/`pm` or `ad`/`bc` anywhere before a date in one
word is never accepted, although it is after it. -/
theorem C99_refused_before_date (p : Profile) (u : TokenField) (c : Caches) (hc : c.Ok) (typmod : Int) (order : DateOrder) (s : Bytes)
    (h : BeforeDate s) : (∀ v, Date.tryFromStr p u c s order ≠ .ok v) ∧ ∀ v, Timestamp.tryFromStr p u c s typmod order ≠ .ok v := by
  obtain ⟨k, l1, x, l2, y, l3, hw, hk, hx, hy, n1, n2⟩ := h
  constructor
  · intro v h
    obtain ⟨fs, d, h1, h2, -⟩ := date_decoded hc h
    obtain ⟨m1, f, m2, g, m3, rfl, hf, hg⟩ := scan_before (k' := .date) hw hx hy n1 n2 h1
    exact decode_before hk hf hg m1 m2 m3 () _ _ h2
  · intro v h
    obtain ⟨fs, d, _, h1, h2, -⟩ := timestamp_decoded hc h
    obtain ⟨m1, f, m2, g, m3, rfl, hf, hg⟩ := scan_before (k' := .date) hw hx hy n1 n2 h1
    exact decode_before hk hf hg m1 m2 m3 () _ _ h2

/-- The same words in the other order are accepted. -/
example : BeforeDate b!"12:30 2024-01-02" ∧ BeforeDate b!"Tue 2024-01-02" := by
  have j : JoinedDate b!"2024-01-02" := JoinedDate.numbers 45 b!"2024" b!"01" b!"02" (by unfold Separator; decide) (by decide)
    (by unfold Digits; decide) (by decide) (by unfold Digits; decide) (by unfold Digit; decide)
  exact ⟨⟨.clock, [], b!"12:30", [], b!"2024-01-02", [], by decide, Or.inl rfl,
      ⟨b!"12", b!"30", by decide, by decide, by unfold Digits; decide, by unfold Digit; decide⟩, j, by simp, by simp⟩,
    ⟨.weekday, [], b!"Tue", [], b!"2024-01-02", [], by decide, Or.inr (Or.inl rfl), ⟨b!"tue", 2, by decide, by unfold SameButCase; decide⟩, j,
      by simp, by simp⟩⟩
example (p : Profile) : Timestamp.tryFromStr p .number Caches.new b!"2024-01-02 12:30" (-1) .ymd = .ok ⟨757513800000000⟩ ∧
    Date.tryFromStr p .number Caches.new b!"2024-01-02 Tue" .ymd = .ok ⟨8767⟩ := by
  cases p <;> decide +kernel

/-- **C99 does not extend to longer numbers.** A number of six digits after two numbers is the year if a clock time stands before it,
and refused if the clock time comes later. -/
theorem C99_six_digits (p : Profile) :
    Timestamp.tryFromStr p .number Caches.new b!"1 2 12:00 200000" (-1) .mdy = .ok ⟨6248276625600000000⟩ ∧
      Timestamp.tryFromStr p .number Caches.new b!"1 2 200000 12:00" (-1) .mdy = .err .invalid := by
  cases p <;> decide +kernel

end Props
