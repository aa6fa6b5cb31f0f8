import Verif.Props.CutOff

/-!
# C119: `at` or `on` behind a text that is read

The converse of C108 for the words that say nothing.
-/

namespace Pg
open Spec

variable {p : Profile} {order : DateOrder} {ft : List TokenField} {i : Nat} {u : TokenField}

theorem field_ignored {w : Bytes} {v : Int} (hw : tokenResult (lookupIn dateTable w) = (.ignoreDtf, v)) (s : Dec × Unit) :
    dateTimeField p plainLook order ft i (.string, w) s = (.ok (), s) := by
  have l : lookDate plainLook i w s = (.ok (.ignoreDtf, v), s) := by
    simp only [lookDate, plainLook, searchDate_eq, hw]
  unfold dateTimeField wordToken
  simp only [St.bind_run, l, if_pos]
  rfl

theorem decode_ignored {w : Bytes} {v : Int} (hw : tokenResult (lookupIn dateTable w) = (.ignoreDtf, v)) {l : List Field} {s : Dec × Unit} {a : Unit}
    (h : decodeDateTime p plainLook order l ({}, ()) = (.ok a, s)) : decodeDateTime p plainLook order (l ++ [(.string, w)]) ({}, ()) = (.ok a, s) := by
  unfold decodeDateTime at h ⊢
  obtain ⟨⟨⟩, s1, q1, q2⟩ := bind_ran h
  rw [St.bind_run, loop_after q1, field_ignored hw]
  exact q2

theorem fieldT_ignored {w : Bytes} {v : Int} (hw : tokenResult (lookupIn dateTable w) = (.ignoreDtf, v)) (s : Dec × Unit) :
    timeOnlyField p plainLook order ft i (.string, w) s = (.ok (), s) := by
  have l : lookDate plainLook i w s = (.ok (.ignoreDtf, v), s) := by
    simp only [lookDate, plainLook, searchDate_eq, hw]
  unfold timeOnlyField wordTokenT
  simp only [St.bind_run, l, if_pos]
  rfl

/-- A field that was decoded at the end of a time is decoded in the same way with a word after it. -/
theorem fieldT_goesOn {ftypes : List TokenField} {f : Field} {s s' : Dec × Unit} {a : Unit}
    (hi : ft[i + 1]? = ftypes[i + 1]? ∨ ftypes[i + 1]? = none) (h1 : ftypes[1]? = some .time → ft[1]? = some .time)
    (n1 : ftypes.getLast? ≠ some .date) (n2 : ft.getLast? ≠ some .date)
    (h : timeOnlyField p plainLook order ftypes i f s = (.ok a, s')) : timeOnlyField p plainLook order ft i f s = (.ok a, s') := by
  by_cases hn : (f.1 = .string ∨ f.1 = .special) ∧ ftypes[i + 1]? = none
  · obtain ⟨hw, hi⟩ := hn
    obtain ⟨f1, w⟩ := f
    have e : ∀ ft, timeOnlyField p plainLook order ft i (f1, w) = timeOnlyField p plainLook order ft i (.string, w) := by
      intro ft
      simp only at hw
      rcases hw with rfl | rfl <;> rfl
    rw [e] at h ⊢
    by_cases hty : (tokenResult (lookupIn dateTable w)).1 = .isotime
    · exfalso
      refine (show Post (timeOnlyField p plainLook order ftypes i (.string, w)) (fun _ _ => False) s from ?_) a s' h
      unfold timeOnlyField wordTokenT
      simp only
      rw [Post.bind, Post.bind, Post.look]
      rcases hr : tokenResult (lookupIn dateTable w) with ⟨ty, v⟩
      rw [hr] at hty
      cases hty
      dsimp only
      rw [if_neg (by decide), Post.bind]
      unfold wordActionT isoTimeWordT
      rw [hi]
      wp
    · rw [← h]
      have : wordActionT ft i (tokenResult (lookupIn dateTable w)).1 (tokenResult (lookupIn dateTable w)).2 =
          wordActionT ftypes i (tokenResult (lookupIn dateTable w)).1 (tokenResult (lookupIn dateTable w)).2 := by
        generalize (tokenResult (lookupIn dateTable w)).1 = ty at hty ⊢
        unfold wordActionT
        cases ty <;> first | rfl | exact absurd rfl hty
      have l : ∀ s : Dec × Unit, lookDate plainLook i w s = (.ok (tokenResult (lookupIn dateTable w)), s) := by
        intro s
        simp only [lookDate, plainLook, searchDate_eq]
      unfold timeOnlyField wordTokenT
      simp only [St.bind_run, l, this]
  · refine fieldT_types (fun hw => Or.inl ?_) (fun _ => ⟨fun q => absurd q n1, h1⟩) (fun _ q => absurd q.2 n2) (fun _ _ q => absurd q n1) h
    rcases hi with hi | hi
    · exact hi.symm
    · exact absurd ⟨hw, hi⟩ hn

theorem loopT_goesOn {ftypes : List TokenField} (h1 : ftypes[1]? = some .time → ft[1]? = some .time)
    (n1 : ftypes.getLast? ≠ some .date) (n2 : ft.getLast? ≠ some .date) : ∀ (l : List Field) (i : Nat) {s s' : Dec × Unit} {a : Unit},
    (∀ j, i ≤ j → j < i + l.length → ft[j + 1]? = ftypes[j + 1]? ∨ ftypes[j + 1]? = none) →
    timeOnlyLoop p plainLook order ftypes l i s = (.ok a, s') → timeOnlyLoop p plainLook order ft l i s = (.ok a, s') := by
  intro l
  induction l with
  | nil => intro i s s' a _ h; exact h
  | cons f l ih =>
    intro i s s' a hj h
    rw [timeOnlyLoop] at h ⊢
    obtain ⟨x, s1, k1, k2⟩ := bind_ran h
    rw [St.bind_run, fieldT_goesOn (hj i (Nat.le_refl _) (by simp)) h1 n1 n2 k1]
    exact ih _ (fun j q1 q2 => hj j (by omega) (by simp only [List.length_cons]; omega)) k2

/-- A date is never the last field of a time. -/
theorem loopT_last {l : List Field} {s s' : Dec × Unit} {a : Unit} (h : timeOnlyLoop p plainLook order (l.map Prod.fst) l 0 s = (.ok a, s')) :
    (l.map Prod.fst).getLast? ≠ some .date := by
  cases l with
  | nil => simp
  | cons f l =>
    rw [timeOnlyLoop] at h
    obtain ⟨x, s1, k1, k2⟩ := bind_ran h
    have k := loopT_noDate _ _ (Nat.succ_pos _) k2
    rcases List.eq_nil_or_concat l with rfl | ⟨l, g, rfl⟩
    · intro e
      obtain ⟨f1, w⟩ := f
      simp only [List.map_cons, List.map_nil, List.getLast?_singleton, Option.some.injEq] at e
      subst e
      unfold timeOnlyField dateTokenT at k1
      simp only at k1
      rw [if_neg (by simp)] at k1
      cases k1
    · intro e
      rw [List.concat_eq_append, ← List.cons_append, List.map_append, List.getLast?_append] at e
      simp only [List.map_cons, List.map_nil, List.getLast?_singleton, Option.some_or, Option.some.injEq] at e
      exact k g (by simp) e

theorem decodeT_ignored {w : Bytes} {v : Int} (hw : tokenResult (lookupIn dateTable w) = (.ignoreDtf, v)) {l : List Field} {s : Dec × Unit} {a : Unit}
    (h : decodeTimeOnly p plainLook order l ({}, ()) = (.ok a, s)) : decodeTimeOnly p plainLook order (l ++ [(.string, w)]) ({}, ()) = (.ok a, s) := by
  unfold decodeTimeOnly at h ⊢
  obtain ⟨⟨⟩, s1, q1, q2⟩ := bind_ran h
  have q3 := loopT_goesOn (ft := (l ++ [(TokenField.string, w)] : List Field).map Prod.fst) (by
    intro e
    rw [List.map_append, List.getElem?_append_left (by
      by_contra hl
      rw [List.getElem?_eq_none (by omega)] at e
      cases e)]
    exact e) (loopT_last q1) (by simp) l 0 (fun j _ _ => types_goesOn l _ j) q1
  have cat : ∀ (ft : List TokenField) (l l' : List Field) (i : Nat) (s s1 : Dec × Unit), timeOnlyLoop p plainLook order ft l i s = (.ok (), s1) →
      timeOnlyLoop p plainLook order ft (l ++ l') i s = timeOnlyLoop p plainLook order ft l' (i + l.length) s1 := by
    intro ft l
    induction l with
    | nil => intro l' i s s1 h; cases h; rfl
    | cons f l ih =>
      intro l' i s s1 h
      rw [timeOnlyLoop] at h
      obtain ⟨⟨⟩, s2, h1, h2⟩ := bind_ran h
      rw [List.cons_append, timeOnlyLoop, St.bind_run, h1]
      dsimp only
      rw [ih _ _ _ _ h2, List.length_cons, show i + 1 + l.length = i + (l.length + 1) by omega]
  have q4 : timeOnlyLoop p plainLook order ((l ++ [(TokenField.string, w)] : List Field).map Prod.fst) (l ++ [(.string, w)]) 0 ({}, ()) = (.ok (), s1) := by
    rw [cat _ _ _ _ _ _ q3, timeOnlyLoop, St.bind_run, fieldT_ignored hw]
    rfl
  rw [St.bind_run, q4]
  exact q2

/-- Behind a text of few visible bytes there is room for a short word. -/
theorem scan_room {s w : Bytes} {l : List Field} (hs : EndsPlainly s) (hl : s.length ≤ 128) (hv : (s.filter fun b => !White b).length ≤ 24)
    (hw : Letters w) (nw : w ≠ []) (lw : w.length ≤ 100) (h : scan u s = .ok l) : scan u (s ++ 32 :: w) = .ok (l ++ [(.string, lower w)]) := by
  obtain ⟨b, b1, b2, b3⟩ := hs
  obtain ⟨k1, k2⟩ := scan_few h hl
  have : (noSpace s).length ≤ 24 := hv
  exact scan_wordAfter b1 b2 b3 hw nw h (by omega) (by omega)

theorem nothing_word {w : Bytes} (h : SameButCase w b!"at" ∨ SameButCase w b!"on") : Letters w ∧ w ≠ [] ∧ w.length ≤ 100 ∧
    ∃ v, tokenResult (lookupIn dateTable (lower w)) = (.ignoreDtf, v) := by
  have len : ∀ {s : Bytes}, SameButCase w s → w.length = s.length := fun h => by simpa using congrArg List.length h
  rcases h with h | h
  · obtain ⟨k1, k2⟩ := small_alpha h (by decide) (by decide) (by decide)
    exact ⟨k1, k2, by rw [len h]; decide, ⟨_, Prod.ext (by rw [lower_word h (by decide)]; decide +kernel) rfl⟩⟩
  · obtain ⟨k1, k2⟩ := small_alpha h (by decide) (by decide) (by decide)
    exact ⟨k1, k2, by rw [len h]; decide, ⟨_, Prod.ext (by rw [lower_word h (by decide)]; decide +kernel) rfl⟩⟩

end Pg

namespace Props
open Pg Spec

/-- **C119, dates.** -/
theorem C119_date (p : Profile) (u : TokenField) (c : Caches) (hc : c.Ok) (order : DateOrder) (s w : Bytes) (hs : EndsPlainly s)
    (hl : s.length ≤ 128) (hn : (s.filter fun b => !White b).length ≤ 24) (hw : SameButCase w b!"at" ∨ SameButCase w b!"on") (v : Date) :
    Date.tryFromStr p u c (s ++ 32 :: w) order = .ok v ↔ Date.tryFromStr p u c s order = .ok v := by
  constructor
  · exact C108_date p u c hc order s w hs (Or.inl (Or.inr hw)) v
  · intro hv
    obtain ⟨l, d, h1, h2, h3⟩ := date_decoded hc hv
    obtain ⟨w1, w2, w3, x, w4⟩ := nothing_word hw
    rw [date_run p u hc order (scan_room hs hl hn w1 w2 w3 h1) (decode_ignored w4 h2), Res.bind_ok]
    exact h3

/-- **C119, timestamps.** -/
theorem C119_timestamp (p : Profile) (u : TokenField) (c : Caches) (hc : c.Ok) (typmod : Int) (order : DateOrder) (s w : Bytes)
    (hs : EndsPlainly s) (hl : s.length ≤ 128) (hn : (s.filter fun b => !White b).length ≤ 24)
    (hw : SameButCase w b!"at" ∨ SameButCase w b!"on") (v : Timestamp) :
    Timestamp.tryFromStr p u c (s ++ 32 :: w) typmod order = .ok v ↔ Timestamp.tryFromStr p u c s typmod order = .ok v := by
  constructor
  · exact C108_timestamp p u c hc typmod order s w hs (Or.inl (Or.inr hw)) v
  · intro hv
    obtain ⟨l, d, t, h1, h2, h3, h4⟩ := timestamp_decoded hc hv
    obtain ⟨w1, w2, w3, x, w4⟩ := nothing_word hw
    rw [timestamp_run p u hc typmod order (scan_room hs hl hn w1 w2 w3 h1) (decode_ignored w4 h2), Res.bind_ok, h3, Res.bind_ok]
    exact h4

/-- **C119, times of day.** -/
theorem C119_time (p : Profile) (u : TokenField) (c : Caches) (hc : c.Ok) (typmod : Int) (order : DateOrder) (s w : Bytes)
    (hs : EndsPlainly s) (hl : s.length ≤ 128) (hn : (s.filter fun b => !White b).length ≤ 24)
    (hw : SameButCase w b!"at" ∨ SameButCase w b!"on") (v : Time) :
    Time.tryFromStr p u c (s ++ 32 :: w) typmod order = .ok v ↔ Time.tryFromStr p u c s typmod order = .ok v := by
  constructor
  · exact C108_time p u c hc typmod order s w hs (Or.inr hw) v
  · intro hv
    obtain ⟨l, d, t, h1, h2, h3, h4⟩ := time_decoded hc hv
    obtain ⟨w1, w2, w3, x, w4⟩ := nothing_word hw
    rw [time_run p u hc typmod order (scan_room hs hl hn w1 w2 w3 h1) (decodeT_ignored w4 h2), Res.bind_ok, h3, Res.bind_ok]
    exact h4

/-- The limit on the visible bytes cannot go: a text may have 25 fields but not 26. -/
theorem C119_limit (p : Profile) (order : DateOrder) :
    Date.tryFromStr p .number Caches.new (b!"2024-01-02" ++ (List.replicate 24 b!" at").flatten) order = .ok ⟨8767⟩ ∧
    (Date.tryFromStr p .number Caches.new (b!"2024-01-02" ++ (List.replicate 24 b!" at").flatten ++ 32 :: b!"at") order).IsErr := by
  refine ⟨by cases p <;> cases order <;> decide +kernel, .invalid, ?_⟩
  cases p <;> cases order <;> decide +kernel

/-! ## Cases -/

/-- A timestamp of 24 visible bytes. -/
example (p : Profile) : EndsPlainly b!"2024-01-02 10:20:30.12 pm" ∧ b!"2024-01-02 10:20:30.12 pm".length ≤ 128 ∧
    (b!"2024-01-02 10:20:30.12 pm".filter fun b => !White b).length ≤ 24 ∧ SameButCase b!"At" b!"at" ∧
    Timestamp.tryFromStr p .number Caches.new b!"2024-01-02 10:20:30.12 pm" (-1) .mdy = .ok ⟨757549230120000⟩ := by
  refine ⟨⟨109, by decide⟩, by decide, by decide, by unfold SameButCase; decide, ?_⟩
  cases p <;> decide +kernel
/-- A time of day with a day in front. -/
example (p : Profile) : EndsPlainly b!"2024-01-02 10:20" ∧ SameButCase b!"on" b!"on" ∧
    Time.tryFromStr p .number Caches.new b!"2024-01-02 10:20" (-1) .mdy = .ok ⟨37200000000⟩ ∧
    Time.tryFromStr p .number Caches.new (b!"2024-01-02 10:20" ++ 32 :: b!"on") (-1) .mdy = .ok ⟨37200000000⟩ := by
  refine ⟨⟨48, by decide⟩, rfl, ?_⟩
  cases p <;> decide +kernel
/-- Texts that are not read stay unread: the word does not stand for a day. -/
example (p : Profile) : EndsPlainly b!"February 30 2024" ∧ (∀ v, Date.tryFromStr p .number Caches.new b!"February 30 2024" .mdy ≠ .ok v) := by
  refine ⟨⟨52, by decide⟩, fun v hv => ?_⟩
  have : (Date.tryFromStr p .number Caches.new b!"February 30 2024" .mdy) = .err .overflow := by cases p <;> decide +kernel
  rw [this] at hv
  cases hv

end Props
