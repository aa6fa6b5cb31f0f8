import Verif.Lemmas.Blind
import Verif.Props.Ornament

/-!
# Property C120: it does not matter which weekday a text names

`c` is the state of the thread's keyword caches, `u` the uninitialised type of a lone sign.
-/

namespace Props
open Pg Spec

/-- **C120.** A weekday in a text is replaced by any other weekday: nothing changes, not even the error. -/
theorem C120_any_weekday (p : Profile) (u : TokenField) (c : Caches) (hc : c.Ok) (typmod : Int) (order : DateOrder) (s s' : Bytes)
    (h : WordExchanged (fun w w' => Mark.weekday.Is w ∧ Mark.weekday.Is w') s s') (h1 : s.length ≤ 128) (h2 : s'.length ≤ 128) :
    Date.tryFromStr p u c s order = Date.tryFromStr p u c s' order ∧
    Time.tryFromStr p u c s typmod order = Time.tryFromStr p u c s' typmod order ∧
    Timestamp.tryFromStr p u c s typmod order = Timestamp.tryFromStr p u c s' typmod order := by
  have word : ∀ w w', Mark.weekday.Is w ∧ Mark.weekday.Is w' → (Letters w ∧ w ≠ []) ∧ (Letters w' ∧ w' ≠ []) := fun w w' ⟨a, b⟩ =>
    ⟨⟨(weekday_word a).1, (weekday_word a).2.1⟩, (weekday_word b).1, (weekday_word b).2.1⟩
  rcases exchanged_words (u := u) word h h1 h2 with ⟨e1, e2⟩ | ⟨l1, l2, w, w', ⟨a, b⟩, e1, e2⟩
  · unfold Date.tryFromStr Time.tryFromStr Timestamp.tryFromStr
    rw [(same_date p u order s c hc).1, (same_date p u order s' c hc).1, (same_time p u typmod order s c hc).1,
      (same_time p u typmod order s' c hc).1, (same_timestamp p u typmod order s c hc).1, (same_timestamp p u typmod order s' c hc).1]
    unfold Date.tryFromStrW Time.tryFromStrW Timestamp.tryFromStrW
    rw [e1, e2]
    exact ⟨rfl, rfl, rfl⟩
  · obtain ⟨v, hv⟩ := (weekday_word a).2.2.2
    obtain ⟨v', hv'⟩ := (weekday_word b).2.2.2
    have d := decode_otherDay (p := p) (order := order) hv hv' l1 l2 ({}, ())
    have t := decodeT_otherDay (p := p) (order := order) hv hv' l1 l2
    rcases q1 : decodeDateTime p plainLook order (l1 ++ (.string, lower w) :: l2) ({}, ()) with ⟨r, x, ⟨⟩⟩
    rcases q2 : decodeDateTime p plainLook order (l1 ++ (.string, lower w') :: l2) ({}, ()) with ⟨r', x', ⟨⟩⟩
    rw [q1, q2] at d
    obtain ⟨rfl, d⟩ := d
    obtain ⟨d1, d2⟩ := ofDec_er (p := p) (show er x = er x' from congrArg Prod.fst d)
    refine ⟨?_, ?_, ?_⟩
    · rw [date_run p u hc order e1 q1, date_run p u hc order e2 q2, d1]
    · unfold Time.tryFromStr
      rw [(same_time p u typmod order s c hc).1, (same_time p u typmod order s' c hc).1]
      unfold Time.tryFromStrW
      rw [e1, e2]
      simp only [St.lift_ok_bind, t]
    · rw [timestamp_run p u hc typmod order e1 q1, timestamp_run p u hc typmod order e2 q2, d2]

/-! ## Cases -/

/-- A weekday in the middle of a text; 3 September 2024 was a Tuesday. -/
example : WordExchanged (fun w w' => Mark.weekday.Is w ∧ Mark.weekday.Is w') b!"3 sep Tues 2024" b!"3 sep SUNDAY 2024" ∧
    ∀ p, Date.tryFromStr p .number Caches.new b!"3 sep Tues 2024" .dmy = .ok ⟨9012⟩ ∧
      Date.tryFromStr p .number Caches.new b!"3 sep SUNDAY 2024" .dmy = .ok ⟨9012⟩ := by
  refine ⟨⟨b!"3 sep ", [], b!"Tues", b!"SUNDAY", b!" 2024", ?_, ?_, Or.inl rfl, ⟨?_, ?_⟩, ?_, rfl, rfl⟩, fun p => by cases p <;> decide +kernel⟩
  · exact Or.inr ⟨32, rfl, rfl⟩
  · unfold EndsInSign; decide +kernel
  · exact ⟨b!"tues", 2, by decide +kernel, by unfold SameButCase; decide⟩
  · exact ⟨b!"sunday", 0, by decide +kernel, by unfold SameButCase; decide⟩
  · exact Or.inr ⟨32, b!"2024", rfl, rfl⟩

/-- Two weekdays in a text stay an error. -/
example : ∀ p, Timestamp.tryFromStr p .number Caches.new b!"mon 2024-09-03 tue" (-1) .dmy = .err .invalid ∧
    Timestamp.tryFromStr p .number Caches.new b!"mon 2024-09-03 fri" (-1) .dmy = .err .invalid := fun p => by cases p <;> decide +kernel

end Props
