import Verif.Lemmas.Wordy
import Verif.Lemmas.CacheSim
import Verif.Lemmas.Vocabulary
import Verif.Props.Times

/-!
# Property C77: infinity is read from its name only

`c` is the state of the thread's keyword caches, `u` the uninitialised type of a lone sign.
-/

namespace Pg
open Spec

theorem date_decoded {p : Profile} {u : TokenField} {c : Caches} (hc : c.Ok) {order : DateOrder} {s : Bytes} {v : Date}
    (h : Date.tryFromStr p u c s order = .ok v) :
    ∃ l d, scan u s = .ok l ∧ decodeDateTime p plainLook order l ({}, ()) = (.ok (), (d, ())) ∧ Date.ofDec p d = .ok v := by
  unfold Date.tryFromStr at h
  rw [(same_date p u order s c hc).1] at h
  unfold Date.tryFromStrW at h
  obtain ⟨l, _, h1, h⟩ := St.bind_inv h
  obtain ⟨⟨_, d⟩, _, h2, h⟩ := St.bind_inv h
  exact ⟨l, d, congrArg Prod.fst h1, runLocal_inv h2, h⟩

theorem timestamp_decoded {p : Profile} {u : TokenField} {c : Caches} (hc : c.Ok) {typmod : Int} {order : DateOrder} {s : Bytes}
    {v : Timestamp} (h : Timestamp.tryFromStr p u c s typmod order = .ok v) :
    ∃ l d t, scan u s = .ok l ∧ decodeDateTime p plainLook order l ({}, ()) = (.ok (), (d, ())) ∧
      Timestamp.ofDec p d = .ok t ∧ t.adjustByTypmod p typmod = .ok v := by
  unfold Timestamp.tryFromStr at h
  rw [(same_timestamp p u typmod order s c hc).1] at h
  unfold Timestamp.tryFromStrW at h
  obtain ⟨l, _, h1, h⟩ := St.bind_inv h
  obtain ⟨⟨_, d⟩, _, h2, h⟩ := St.bind_inv h
  obtain ⟨t, _, h3, h⟩ := St.bind_inv h
  exact ⟨l, d, t, congrArg Prod.fst h1, runLocal_inv h2, congrArg Prod.fst h3, h⟩

/-- What the kind of the decoded fields says about the value. -/
theorem date_kind {p : Profile} {d : Dec} {v : Date} (h : Date.ofDec p d = .ok v) :
    (d.dType = .date ∧ v.v ≠ i32Max ∧ v.v ≠ i32Min) ∨ (d.dType = .late ∧ v.v = i32Max) ∨ (d.dType = .early ∧ v.v = i32Min) := by
  unfold Date.ofDec at h
  split at h
  · rename_i hk
    split at h
    · cases h
    · obtain ⟨j, -, h⟩ := Res.bind_eq_ok.1 h
      obtain ⟨n, -, h⟩ := Res.bind_eq_ok.1 h
      split at h
      · rename_i hv
        cases h
        have := (dateRange_iff _).1 ((isValidDate_iff n).1 hv)
        exact Or.inl ⟨hk, by dsimp only; omega, by dsimp only; omega⟩
      · cases h
  · rename_i hk; cases h; exact Or.inr (Or.inl ⟨hk, rfl⟩)
  · rename_i hk; cases h; exact Or.inr (Or.inr ⟨hk, rfl⟩)
  · cases h

theorem timestamp_kind {p : Profile} {d : Dec} {t v : Timestamp} {typmod : Int} (h0 : Timestamp.ofDec p d = .ok t)
    (h : t.adjustByTypmod p typmod = .ok v) :
    (d.dType = .date ∧ v.v ≠ i64Max ∧ v.v ≠ i64Min) ∨ (d.dType = .late ∧ v.v = i64Max) ∨ (d.dType = .early ∧ v.v = i64Min) := by
  have inf : t.v = i64Max ∨ t.v = i64Min → v.v = t.v := by
    intro hi
    unfold Timestamp.adjustByTypmod at h
    split at h
    · rename_i hc
      exact absurd (by unfold Timestamp.isInfinite; simp; omega) hc.1
    · cases h; rfl
  unfold Timestamp.ofDec at h0
  split at h0
  · rename_i hk
    obtain ⟨x, hv, h0⟩ := Res.bind_eq_ok.1 h0
    cases h0
    have hr : TsRange x := by
      unfold PgTime.toTimestamp at hv
      split at hv
      · cases hv
      · obtain ⟨_, -, hv⟩ := Res.bind_eq_ok.1 hv
        obtain ⟨_, -, hv⟩ := Res.bind_eq_ok.1 hv
        obtain ⟨_, -, hv⟩ := Res.bind_eq_ok.1 hv
        obtain ⟨_, -, hv⟩ := Res.bind_eq_ok.1 hv
        split at hv
        · cases hv
        · split at hv
          · cases hv
          · split at hv
            · rename_i hr; cases hv
              exact (isValidTimestamp_iff _).1 hr
            · cases hv
    have hb := (tsRange_iff _).1 hr
    refine Or.inl ⟨hk, ?_⟩
    unfold Timestamp.adjustByTypmod at h
    split at h
    · rename_i hc
      split at h
      · cases h
      · obtain ⟨r, hr, h⟩ := Res.bind_eq_ok.1 h
        cases h
        obtain ⟨r', e, hn⟩ := Props.roundTo_eq p (n := typmod.toNat) (v := x) (by omega) (by omega)
        have : ((typmod.toNat : Nat) : Int) = typmod := by omega
        rw [this, hr] at e
        cases e
        have hu : Props.precisionUnit typmod.toNat = 1000000 ∨ Props.precisionUnit typmod.toNat = 100000 ∨
          Props.precisionUnit typmod.toNat = 10000 ∨ Props.precisionUnit typmod.toNat = 1000 ∨
          Props.precisionUnit typmod.toNat = 100 ∨ Props.precisionUnit typmod.toNat = 10 ∨ Props.precisionUnit typmod.toNat = 1 := by
            have := Props.precisionUnit_cases (n := typmod.toNat) (by omega); omega
        unfold Nearest at hn
        dsimp only
        generalize Props.precisionUnit typmod.toNat = k at *
        rcases hu with rfl | rfl | rfl | rfl | rfl | rfl | rfl <;> omega
    · cases h
      dsimp only
      omega
  · rename_i hk; cases h0; exact Or.inr (Or.inl ⟨hk, inf (Or.inl rfl)⟩)
  · rename_i hk; cases h0; exact Or.inr (Or.inr ⟨hk, inf (Or.inr rfl)⟩)
  · cases h0

/-- The end of the decoder keeps the kind. -/
theorem decode_kind {p : Profile} {order : DateOrder} {P : TokenField → Prop} {l : List Field}
    (h : Post (dateTimeLoop p plainLook order (l.map Prod.fst) l 0) (fun _ s => P s.1.dType) ({}, ())) {d : Dec}
    (hd : decodeDateTime p plainLook order l ({}, ()) = (.ok (), (d, ()))) : P d.dType := by
  have : Post (decodeDateTime p plainLook order l) (fun _ s => P s.1.dType) ({}, ()) := by
    unfold decodeDateTime finishFields
    rw [Post.bind]
    refine h.mono fun _ s hs => ?_
    wp
    intro tm _ _
    exact ⟨fun _ _ => hs, fun _ => ⟨fun _ _ _ _ => hs, fun _ _ => hs⟩⟩
  exact this _ _ hd

theorem unlabelled_of {s : Bytes} {f : Field} (hf : WordAt s f) (h1 : ¬ Says labelWords s) (h2 : ¬ Says [b!"allballs"] s) :
    Unlabelled f := by
  intro ty v he
  refine ⟨fun h => h1 (label_entry he hf (Or.inl h)), fun h => h1 (label_entry he hf (Or.inr h)), ?_⟩
  rintro ⟨rfl, rfl⟩
  exact h2 (midnight_word he hf)

theorem loop_infinity {p : Profile} {order : DateOrder} {k : TokenField} (hk : k = .late ∨ k = .early) {l1 l2 : List Field}
    (h1 : ∀ f ∈ l1, Unlabelled f) (h2 : ∀ f ∈ l2, Unlabelled f) (ft : List TokenField) (i : Nat) (s : Dec × Unit)
    (hs : s.1.pType = .number) :
    Post (dateTimeLoop p plainLook order ft (l1 ++ infinityField k :: l2) i) (fun _ s => s.1.dType = k) s := by
  induction l1 generalizing i s with
  | nil =>
    rw [List.nil_append, dateTimeLoop, Post.bind]
    exact (field_infinity hk s hs).mono fun _ s' hs' =>
      (loop_all (I := Late k) (fun _ _ _ s h1 h2 => field_late h1 s h2) l2 ft _ s' h2 hs').mono fun _ _ h => h.1
  | cons f l1 ih =>
    rw [List.cons_append, dateTimeLoop, Post.bind]
    exact (field_number (h1 f (by simp)) s hs).mono fun _ s' hs' => ih (fun g hg => h1 g (by simp [hg])) _ s' hs'

/-- The scanner on the word infinity. -/
theorem scan_infinity_word {u : TokenField} {s : Bytes} {l : List Field} (h : HasWord (fun w => SameButCase w b!"infinity") s)
    (hs : scan u s = .ok l) : ∃ l1 l2, l = l1 ++ infinityField .late :: l2 := by
  have := scan_word (Q := fun f => f = infinityField .late) (u := u) (fun {x c fuel cap nf l} hx hc hl h => ?_) h hs
  · obtain ⟨l1, f, l2, e, rfl⟩ := this
    exact ⟨l1, l2, e⟩
  · have hx' : lower x = b!"infinity" := by rw [lower_eq_small]; exact hx
    have nw : x ≠ [] := by rintro rfl; cases hx'
    have hw : Letters x := by
      intro b hb
      have hb' : lowerB b ∈ lower x := List.mem_map.2 ⟨b, hb, rfl⟩
      rw [hx'] at hb'
      have : isAlpha (lowerB b) = true := (by decide : ∀ b ∈ b!"infinity", isAlpha b = true) _ hb'
      rw [isAlpha_iff] at this ⊢
      unfold lowerB isUpper at this
      simp only [Bool.and_eq_true, decide_eq_true_eq] at this
      split at this <;> omega
    obtain ⟨l1, l2, e⟩ := scanLoop_word (a := []) (Or.inl rfl) nw hw hc hl h
    exact ⟨l1, _, l2, e, by rw [hx']; rfl⟩

theorem scan_minus_infinity {u : TokenField} {s : Bytes} {l : List Field}
    (h : HasWord (fun w => SameButCase w b!"-infinity") s) (hs : scan u s = .ok l) :
    ∃ l1 l2, l = l1 ++ infinityField .early :: l2 := by
  have := scan_word (Q := fun f => f = infinityField .early) (u := u) (fun {x c fuel cap nf l} hx hc hl h => ?_) h hs
  · obtain ⟨l1, f, l2, e, rfl⟩ := this
    exact ⟨l1, l2, e⟩
  · have hx' : lower x = b!"-infinity" := by rw [lower_eq_small]; exact hx
    cases x with
    | nil => cases hx'
    | cons b w =>
      have e1 : lowerB b = 45 := congrArg (fun l => l.headD 0) hx'
      have e2 : lower w = b!"infinity" := congrArg List.tail hx'
      obtain rfl : b = 45 := by
        unfold lowerB isUpper at e1
        simp only [Bool.and_eq_true, decide_eq_true_eq] at e1
        split at e1 <;> omega
      have hw : Letters w := by
        intro b hb
        have hb' : lowerB b ∈ lower w := List.mem_map.2 ⟨b, hb, rfl⟩
        rw [e2] at hb'
        have : isAlpha (lowerB b) = true := (by decide : ∀ b ∈ b!"infinity", isAlpha b = true) _ hb'
        rw [isAlpha_iff] at this ⊢
        unfold lowerB isUpper at this
        simp only [Bool.and_eq_true, decide_eq_true_eq] at this
        split at this <;> omega
      have hr : Stops isAlpha c := over_stops hc fun b h => by rcases space_cases h with rfl | rfl | rfl | rfl | rfl <;> rfl
      obtain ⟨a, r, rfl⟩ := List.exists_cons_of_ne_nil (show w ≠ [] by rintro rfl; cases e2)
      have ha := hw a (by simp)
      have hnd : isDigit a = false := by
        rw [isAlpha_iff] at ha
        rw [Bool.eq_false_iff, ne_eq, isDigit_iff]; omega
      have hf : scanField u 45 (45 :: ((a :: r) ++ c)) = .ok (infinityField .early, c) := by
        rw [scanField, if_neg (by decide), if_neg (by decide), if_neg (by decide), scanSign]
        simp only [List.cons_append, List.dropWhile_cons_of_neg (show ¬ isSpace a = true by rw [alpha_noSpace a ha]; decide)]
        rw [if_neg (by rw [hnd]; decide), if_pos ha, ← List.cons_append, takeWhile_span hw hr, dropWhile_span hw hr, e2]
        rfl
      obtain ⟨l', _, _, _, rfl, -, -⟩ := scanLoop_step (by decide) hf hl h
      exact ⟨[], _, l', rfl, rfl⟩

end Pg

namespace Props
open Pg Spec

/-- **C77, only by name.** A text read as infinity contains the word `infinity`, in any case, as a whole run of letters. A text
read as minus infinity contains it after a minus sign. -/
theorem C77_only (p : Profile) (u : TokenField) (c : Caches) (hc : c.Ok) (typmod : Int) (order : DateOrder) (s : Bytes) :
    (Date.tryFromStr p u c s order = .ok ⟨i32Max⟩ ∨ Timestamp.tryFromStr p u c s typmod order = .ok ⟨i64Max⟩ →
      ∃ w, LetterRun w s ∧ SameButCase w b!"infinity") ∧
    (Date.tryFromStr p u c s order = .ok ⟨i32Min⟩ ∨ Timestamp.tryFromStr p u c s typmod order = .ok ⟨i64Min⟩ →
      ∃ w, MinusRun w s ∧ SameButCase w b!"infinity") := by
  have key : ∀ l d, scan u s = .ok l → decodeDateTime p plainLook order l ({}, ()) = (.ok (), (d, ())) →
      (d.dType = .late → ∃ w, LetterRun w s ∧ SameButCase w b!"infinity") ∧
      (d.dType = .early → ∃ w, MinusRun w s ∧ SameButCase w b!"infinity") := by
    intro l d hl hd
    exact decode_kind (P := fun k => (k = .late → _) ∧ (k = .early → _))
      (loop_all (I := NamedKind s) (fun _ _ _ s h1 h2 => field_named h1 s h2) l _ 0 _ (scan_wordAt hl)
        ⟨fun h => (by cases h), fun h => by cases h⟩) hd
  refine ⟨fun h => ?_, fun h => ?_⟩ <;> rcases h with h | h
  · obtain ⟨l, d, h1, h2, h3⟩ := date_decoded hc h
    rcases date_kind h3 with ⟨-, k, -⟩ | ⟨k, -⟩ | ⟨-, k⟩
    · exact absurd rfl k
    · exact (key l d h1 h2).1 k
    · cases k
  · obtain ⟨l, d, t, h1, h2, h3, h4⟩ := timestamp_decoded hc h
    rcases timestamp_kind h3 h4 with ⟨-, k, -⟩ | ⟨k, -⟩ | ⟨-, k⟩
    · exact absurd rfl k
    · exact (key l d h1 h2).1 k
    · cases k
  · obtain ⟨l, d, h1, h2, h3⟩ := date_decoded hc h
    rcases date_kind h3 with ⟨-, -, k⟩ | ⟨-, k⟩ | ⟨k, -⟩
    · exact absurd rfl k
    · cases k
    · exact (key l d h1 h2).2 k
  · obtain ⟨l, d, t, h1, h2, h3, h4⟩ := timestamp_decoded hc h
    rcases timestamp_kind h3 h4 with ⟨-, -, k⟩ | ⟨-, k⟩ | ⟨k, -⟩
    · exact absurd rfl k
    · cases k
    · exact (key l d h1 h2).2 k

/-- **C77, the name decides.** A text without labels of numbers that has the word `infinity` is read as infinity or not at all,
whatever else it says. The same for `-infinity`. -/
theorem C77_word (p : Profile) (u : TokenField) (c : Caches) (hc : c.Ok) (typmod : Int) (order : DateOrder) (s : Bytes)
    (h1 : ¬ Says labelWords s) (h2 : ¬ Says [b!"allballs"] s) :
    (HasWord (fun w => SameButCase w b!"infinity") s →
      (∀ v, Date.tryFromStr p u c s order = .ok v → v = ⟨i32Max⟩) ∧
      ∀ v, Timestamp.tryFromStr p u c s typmod order = .ok v → v = ⟨i64Max⟩) ∧
    (HasWord (fun w => SameButCase w b!"-infinity") s →
      (∀ v, Date.tryFromStr p u c s order = .ok v → v = ⟨i32Min⟩) ∧
      ∀ v, Timestamp.tryFromStr p u c s typmod order = .ok v → v = ⟨i64Min⟩) := by
  have key : ∀ k : TokenField, k = .late ∨ k = .early → ∀ l d, scan u s = .ok l → (∃ l1 l2, l = l1 ++ infinityField k :: l2) →
      decodeDateTime p plainLook order l ({}, ()) = (.ok (), (d, ())) → d.dType = k := by
    rintro k hk l d hl ⟨l1, l2, rfl⟩ hd
    have hu := fun f hf => unlabelled_of (scan_wordAt hl f hf) h1 h2
    exact decode_kind (P := fun x => x = k)
      (loop_infinity hk (fun f hf => hu f (by simp [hf])) (fun f hf => hu f (by simp [hf])) _ 0 _ rfl) hd
  refine ⟨fun hw => ⟨fun v h => ?_, fun v h => ?_⟩, fun hw => ⟨fun v h => ?_, fun v h => ?_⟩⟩
  · obtain ⟨l, d, e1, e2, e3⟩ := date_decoded hc h
    have hk := key .late (Or.inl rfl) l d e1 (scan_infinity_word hw e1) e2
    rcases date_kind e3 with ⟨k, -⟩ | ⟨-, k⟩ | ⟨k, -⟩
    · rw [hk] at k; cases k
    · cases v; cases k; rfl
    · rw [hk] at k; cases k
  · obtain ⟨l, d, t, e1, e2, e3, e4⟩ := timestamp_decoded hc h
    have hk := key .late (Or.inl rfl) l d e1 (scan_infinity_word hw e1) e2
    rcases timestamp_kind e3 e4 with ⟨k, -⟩ | ⟨-, k⟩ | ⟨k, -⟩
    · rw [hk] at k; cases k
    · cases v; cases k; rfl
    · rw [hk] at k; cases k
  · obtain ⟨l, d, e1, e2, e3⟩ := date_decoded hc h
    have hk := key .early (Or.inr rfl) l d e1 (scan_minus_infinity hw e1) e2
    rcases date_kind e3 with ⟨k, -⟩ | ⟨k, -⟩ | ⟨-, k⟩
    · rw [hk] at k; cases k
    · rw [hk] at k; cases k
    · cases v; cases k; rfl
  · obtain ⟨l, d, t, e1, e2, e3, e4⟩ := timestamp_decoded hc h
    have hk := key .early (Or.inr rfl) l d e1 (scan_minus_infinity hw e1) e2
    rcases timestamp_kind e3 e4 with ⟨k, -⟩ | ⟨k, -⟩ | ⟨-, k⟩
    · rw [hk] at k; cases k
    · rw [hk] at k; cases k
    · cases v; cases k; rfl

/-- **C77, without digits.** A text without a digit and a full stop, whose last word does not end in a sign and without the word
for midnight, is read as infinity, as minus infinity, or not at all. -/
theorem C77_noDigits (p : Profile) (u : TokenField) (c : Caches) (hc : c.Ok) (typmod : Int) (order : DateOrder) (s : Bytes)
    (h1 : ∀ b ∈ s, ¬ Digit b ∧ b ≠ 46) (h2 : NoLastSign s) (h3 : ¬ Says [b!"allballs"] s) :
    (∀ v, Date.tryFromStr p u c s order = .ok v → v = ⟨i32Max⟩ ∨ v = ⟨i32Min⟩) ∧
    ∀ v, Timestamp.tryFromStr p u c s typmod order = .ok v → v = ⟨i64Max⟩ ∨ v = ⟨i64Min⟩ := by
  refine ⟨fun v h => ?_, fun v h => ?_⟩
  · obtain ⟨l, d, e1, e2, e3⟩ := date_decoded hc h
    have hk := decode_bare (scan_bare e1 h1 h2 h3) () _ _ e2
    rcases date_kind e3 with ⟨k, -⟩ | ⟨-, k⟩ | ⟨-, k⟩
    · exact absurd k hk
    · left; cases v; cases k; rfl
    · right; cases v; cases k; rfl
  · obtain ⟨l, d, t, e1, e2, e3, e4⟩ := timestamp_decoded hc h
    have hk := decode_bare (scan_bare e1 h1 h2 h3) () _ _ e2
    rcases timestamp_kind e3 e4 with ⟨k, -⟩ | ⟨-, k⟩ | ⟨-, k⟩
    · exact absurd k hk
    · left; cases v; cases k; rfl
    · right; cases v; cases k; rfl

/-- **C77, violated.** A text that names a day is read as infinity; a text that names infinity is read as a day; a text that names
neither a day nor infinity is read as a day; a text without digits as Julian day 0. -/
theorem C77_violated (p : Profile) (u : TokenField) (c : Caches) (hc : c.Ok) (order : DateOrder) :
    Date.tryFromStr p u c b!"2024-01-02 infinity" .ymd = .ok ⟨i32Max⟩ ∧
    Date.tryFromStr p u c b!"infinity y2024 m1 d2" order = .ok ⟨8767⟩ ∧
    Date.tryFromStr p u c b!"allballs" order = .ok ⟨-730517⟩ ∧
    Date.tryFromStr p u c b!"j ." order = .ok ⟨-2451545⟩ := by
  have s1 : scan u b!"2024-01-02 infinity" = .ok [(.date, b!"2024-01-02"), (.string, b!"infinity")] := by
    cases u <;> decide +kernel
  have s2 : scan u b!"infinity y2024 m1 d2" = .ok [(.string, b!"infinity"), (.string, b!"y"), (.number, b!"2024"), (.string, b!"m"),
      (.number, b!"1"), (.string, b!"d"), (.number, b!"2")] := by
    cases u <;> decide +kernel
  have s3 : scan u b!"allballs" = .ok [(.string, b!"allballs")] := by cases u <;> decide +kernel
  have s4 : scan u b!"j ." = .ok [(.string, b!"j"), (.number, b!".")] := by cases u <;> decide +kernel
  exact ⟨date_eval p u hc .ymd s1 (by cases p <;> decide +kernel),
    date_eval p u hc order s2 (by cases p <;> cases order <;> decide +kernel),
    date_eval p u hc order s3 (by cases p <;> cases order <;> decide +kernel),
    date_eval p u hc order s4 (by cases p <;> cases order <;> decide +kernel)⟩

/-! ## Cases -/

/-- Runs of letters by place and length. -/
theorem says_at {l : List Bytes} {s : Bytes} (h : Says l s) :
    ∃ i < s.length, ∃ n < s.length + 1, (∀ b ∈ (s.drop i).take n, Letter b) ∧ (∀ b ∈ (s.take i).getLast?, ¬ Letter b) ∧
      (∀ b ∈ (s.drop (i + n)).head?, ¬ Letter b) ∧ Known l ((s.drop i).take n) := by
  obtain ⟨w, ⟨a, c, rfl, h1, h2, h3, h4⟩, hk⟩ := h
  have := List.length_pos_iff.2 h1
  refine ⟨a.length, by simp; omega, w.length, by simp; omega, ?_⟩
  rw [List.drop_left, List.take_left, List.take_left, ← List.drop_drop, List.drop_left, List.drop_left]
  exact ⟨h2, fun b hb => h3 b hb, fun b hb => h4 b hb, hk⟩

example : ¬ Says labelWords b!"2024-01-02 10:00 Infinity Mon" ∧ ¬ Says [b!"allballs"] b!"2024-01-02 10:00 Infinity Mon" := by
  refine ⟨fun h => absurd (says_at h) ?_, fun h => absurd (says_at h) ?_⟩ <;> unfold Letter Known SameButCase <;> decide +kernel

/-- A text without digits, with other words than infinity. -/
example : (∀ b ∈ b!"Mon Jan pm -infinity", ¬ Digit b ∧ b ≠ 46) ∧ NoLastSign b!"Mon Jan pm -infinity" ∧
    ¬ Says [b!"allballs"] b!"Mon Jan pm -infinity" := by
  refine ⟨by unfold Digit; decide, ?_, fun h => absurd (says_at h) ?_⟩
  · intro w hw
    have : words b!"Mon Jan pm -infinity" = [b!"Mon", b!"Jan", b!"pm", b!"-infinity"] := by decide
    rw [this] at hw
    cases hw
    unfold EndsInSign
    decide
  · unfold Letter Known SameButCase
    decide +kernel

/-- Both infinities are read, also beside other words. -/
example (p : Profile) (u : TokenField) (c : Caches) (hc : c.Ok) :
    Date.tryFromStr p u c b!"Infinity Mon" .ymd = .ok ⟨i32Max⟩ ∧
    Timestamp.tryFromStr p u c b!" - infinity" (-1) .ymd = .ok ⟨i64Min⟩ := by
  have s1 : scan u b!"Infinity Mon" = .ok [(.string, b!"infinity"), (.string, b!"mon")] := by cases u <;> decide +kernel
  have s2 : scan u b!" - infinity" = .ok [(.special, b!"-infinity")] := by cases u <;> decide +kernel
  exact ⟨date_eval p u hc .ymd s1 (by cases p <;> decide +kernel),
    timestamp_eval p u hc (-1) .ymd s2 (by cases p <;> decide +kernel)⟩

example : HasWord (fun w => SameButCase w b!"infinity") b!"2024-01-02 10:00 Infinity Mon" :=
  ⟨[b!"2024-01-02", b!"10:00"], b!"Infinity", [b!"Mon"], by decide, by unfold SameButCase; decide, by unfold EndsInSign; decide⟩
example : HasWord (fun w => SameButCase w b!"-infinity") b!"Mon -INFINITY" :=
  ⟨[b!"Mon"], b!"-INFINITY", [], by decide, by unfold SameButCase; decide, by unfold EndsInSign; decide⟩

end Props
