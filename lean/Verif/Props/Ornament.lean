import Verif.Lemmas.Ornament
import Verif.Props.Replace
import Verif.Spec.Ornament

/-!
# Property C108: a weekday, `ad`, `at` or `on` at the end changes nothing

`c` is the state of the thread's keyword caches, `u` the uninitialised type of a lone sign.
-/

namespace Pg
open Spec

theorem filler_word {w : Bytes} (h : Filler w) : Letters w ∧ w ≠ [] ∧ w.length ≤ 128 ∧
    (tokenResult (lookupIn dateTable (lower w)) = (.adbc, 0) ∨ ∃ v, tokenResult (lookupIn dateTable (lower w)) = (.ignoreDtf, v)) := by
  have len : ∀ {s : Bytes}, SameButCase w s → w.length = s.length := fun h => by simpa using congrArg List.length h
  rcases h with h | h | h
  · obtain ⟨k1, k2⟩ := small_alpha h (by decide) (by decide) (by decide)
    exact ⟨k1, k2, by rw [len h]; decide, Or.inl (by rw [lower_word h (by decide)]; decide +kernel)⟩
  · obtain ⟨k1, k2⟩ := small_alpha h (by decide) (by decide) (by decide)
    exact ⟨k1, k2, by rw [len h]; decide, Or.inr ⟨_, Prod.ext (by rw [lower_word h (by decide)]; decide +kernel) rfl⟩⟩
  · obtain ⟨k1, k2⟩ := small_alpha h (by decide) (by decide) (by decide)
    exact ⟨k1, k2, by rw [len h]; decide, Or.inr ⟨_, Prod.ext (by rw [lower_word h (by decide)]; decide +kernel) rfl⟩⟩

theorem weekday_word {w : Bytes} (h : Mark.weekday.Is w) : Letters w ∧ w ≠ [] ∧ w.length ≤ 128 ∧
    ∃ v, tokenResult (lookupIn dateTable (lower w)) = (.dow, v) := by
  obtain ⟨s, n, hs, hw⟩ := h
  obtain ⟨h1, h2, h3⟩ := listed_word weekday_list hs hw
  refine ⟨h1, h2, ?_, h3⟩
  have len : w.length = s.length := by simpa using congrArg List.length hw
  have all : ∀ x ∈ weekdayWords ++ shortWeekdayWords, x.1.length ≤ 128 := by decide +kernel
  rw [len]
  exact all _ hs

theorem weekday_refusedT {p : Profile} {order : DateOrder} {ft : List TokenField} {i : Nat} {w : Bytes} {v : Int}
    (hw : tokenResult (lookupIn dateTable w) = (.dow, v)) (s : Dec × Unit) :
    Post (timeOnlyField p plainLook order ft i (.string, w)) (fun _ _ => False) s := by
  unfold timeOnlyField wordTokenT
  simp only
  rw [Post.bind, Post.bind, Post.look, hw]
  dsimp only
  rw [if_neg (by decide), Post.bind]
  unfold wordActionT
  wp

theorem ornament_field {p : Profile} {order : DateOrder} {w : Bytes} (h : Ornament w) : Letters w ∧ w ≠ [] ∧ w.length ≤ 128 ∧
    ∀ ft i d, EraSeen d → Post (dateTimeField p plainLook order ft i (.string, lower w)) (fun _ s' => Decorated d s'.1) (d, ()) := by
  rcases h with h | h
  · obtain ⟨h1, h2, h3, h4⟩ := filler_word h
    refine ⟨h1, h2, h3, fun ft i d hd => ?_⟩
    rcases h4 with h4 | ⟨v, h4⟩
    · exact era_decorated h4 ft i d hd
    · exact ignored_decorated h4 ft i d
  · obtain ⟨h1, h2, h3, v, h4⟩ := weekday_word h
    exact ⟨h1, h2, h3, fun ft i d _ => weekday_decorated h4 ft i d⟩

theorem filler_fieldT {p : Profile} {order : DateOrder} {w : Bytes} (h : Filler w) : Letters w ∧ w ≠ [] ∧ w.length ≤ 128 ∧
    ∀ ft i d, EraSeen d → Post (timeOnlyField p plainLook order ft i (.string, lower w)) (fun _ s' => Decorated d s'.1) (d, ()) := by
  obtain ⟨h1, h2, h3, h4⟩ := filler_word h
  refine ⟨h1, h2, h3, fun ft i d hd => ?_⟩
  rcases h4 with h4 | ⟨v, h4⟩
  · exact eraT_decorated h4 ft i d hd
  · exact ignoredT_decorated h4 ft i d

end Pg

namespace Props
open Pg Spec

/-- **C108, dates.** -/
theorem C108_date (p : Profile) (u : TokenField) (c : Caches) (hc : c.Ok) (order : DateOrder) (s w : Bytes) (hs : EndsPlainly s) (hw : Ornament w)
    (v : Date) (hv : Date.tryFromStr p u c (s ++ 32 :: w) order = .ok v) : Date.tryFromStr p u c s order = .ok v := by
  obtain ⟨b, b1, b2, b3⟩ := hs
  obtain ⟨l, d, h1, h2, h3⟩ := date_decoded hc hv
  obtain ⟨w1, w2, w3, w4⟩ := ornament_field (p := p) (order := order) hw
  obtain ⟨l1, k1, rfl⟩ := scan_more b1 b2 b3 w1 w2 w3 h1
  obtain ⟨e, k2, k3⟩ := decode_decorated w4 h2
  rw [date_run p u hc order k1 k2, Res.bind_ok, k3.date]
  exact h3

/-- **C108, timestamps.** With any type modifier. -/
theorem C108_timestamp (p : Profile) (u : TokenField) (c : Caches) (hc : c.Ok) (typmod : Int) (order : DateOrder) (s w : Bytes) (hs : EndsPlainly s)
    (hw : Ornament w) (v : Timestamp) (hv : Timestamp.tryFromStr p u c (s ++ 32 :: w) typmod order = .ok v) :
    Timestamp.tryFromStr p u c s typmod order = .ok v := by
  obtain ⟨b, b1, b2, b3⟩ := hs
  obtain ⟨l, d, t, h1, h2, h3, h4⟩ := timestamp_decoded hc hv
  obtain ⟨w1, w2, w3, w4⟩ := ornament_field (p := p) (order := order) hw
  obtain ⟨l1, k1, rfl⟩ := scan_more b1 b2 b3 w1 w2 w3 h1
  obtain ⟨e, k2, k3⟩ := decode_decorated w4 h2
  rw [timestamp_run p u hc typmod order k1 k2, Res.bind_ok, k3.timestamp, h3, Res.bind_ok]
  exact h4

/-- **C108, times.** -/
theorem C108_time (p : Profile) (u : TokenField) (c : Caches) (hc : c.Ok) (typmod : Int) (order : DateOrder) (s w : Bytes) (hs : EndsPlainly s)
    (hw : Filler w) (v : Time) (hv : Time.tryFromStr p u c (s ++ 32 :: w) typmod order = .ok v) :
    Time.tryFromStr p u c s typmod order = .ok v := by
  obtain ⟨b, b1, b2, b3⟩ := hs
  obtain ⟨l, d, t, h1, h2, h3, h4⟩ := time_decoded hc hv
  obtain ⟨w1, w2, w3, w4⟩ := filler_fieldT (p := p) (order := order) hw
  obtain ⟨l1, k1, rfl⟩ := scan_more b1 b2 b3 w1 w2 w3 h1
  obtain ⟨e, k2, k3⟩ := decodeT_decorated w4 h2
  rw [time_run p u hc typmod order k1 k2, Res.bind_ok, k3.time, h3, Res.bind_ok]
  exact h4

/-- **C108, times: weekdays.** The name of a weekday is not accepted at the end of a time. -/
theorem C108_time_weekday (p : Profile) (u : TokenField) (c : Caches) (hc : c.Ok) (typmod : Int) (order : DateOrder) (s w : Bytes)
    (hs : EndsPlainly s) (hw : Mark.weekday.Is w) (v : Time) : Time.tryFromStr p u c (s ++ 32 :: w) typmod order ≠ .ok v := by
  intro hv
  obtain ⟨b, b1, b2, b3⟩ := hs
  obtain ⟨l, d, t, h1, h2, h3, h4⟩ := time_decoded hc hv
  obtain ⟨w1, w2, w3, x, w4⟩ := weekday_word hw
  obtain ⟨l1, k1, rfl⟩ := scan_more b1 b2 b3 w1 w2 w3 h1
  unfold decodeTimeOnly at h2
  obtain ⟨⟨⟩, s1, q1, -⟩ := bind_ran h2
  obtain ⟨s0, ft, -, q2⟩ := loopT_more q1
  exact weekday_refusedT w4 s0 _ _ q2

/-! ## Cases -/

example (p : Profile) : EndsPlainly b!"2024-01-02 10:20:30 pm" ∧ Ornament b!"Tuesday" ∧
    Timestamp.tryFromStr p .number Caches.new (b!"2024-01-02 10:20:30 pm" ++ 32 :: b!"Tuesday") (-1) .mdy = .ok ⟨757549230000000⟩ := by
  refine ⟨⟨109, by decide⟩, Or.inr ⟨b!"tuesday", 2, by decide, by unfold SameButCase; decide⟩, ?_⟩
  cases p <;> decide +kernel
/-- The name of the wrong weekday is accepted as well. -/
example (p : Profile) : Ornament b!"fri" ∧ Date.tryFromStr p .number Caches.new (b!"Jan 2 2024" ++ 32 :: b!"fri") .mdy = .ok ⟨8767⟩ ∧
    Date.tryFromStr p .number Caches.new (b!"Jan 2 2024" ++ 32 :: b!"AD") .mdy = .ok ⟨8767⟩ := by
  refine ⟨Or.inr ⟨b!"fri", 5, by decide, by unfold SameButCase; decide⟩, ?_⟩
  cases p <;> decide +kernel
example (p : Profile) : EndsPlainly b!"10:20:30 am" ∧ Filler b!"On" ∧
    Time.tryFromStr p .number Caches.new (b!"10:20:30 am" ++ 32 :: b!"On") (-1) .mdy = .ok ⟨37230000000⟩ := by
  refine ⟨⟨109, by decide⟩, Or.inr (Or.inr (by unfold SameButCase; decide)), ?_⟩
  cases p <;> decide +kernel
/-- After a sign the word is part of it: this is not covered. -/
example : ¬ EndsPlainly b!"10:00 -" := by
  rintro ⟨b, h, -, -, h2, -⟩
  cases h
  exact h2 rfl

end Props
