import Verif.Lemmas.Synonym
import Verif.Lemmas.ParseRun
import Verif.Lemmas.Quantities
import Verif.Lemmas.MonthNames

/-!
# Property C113: words that mean the same may replace each other

`c` is the state of the thread's keyword caches, `u` the uninitialised type of a lone sign.
-/

namespace Pg
open Spec

theorem day_synonyms {w w' : Bytes} (h : DaySynonyms w w') : (Letters w ∧ w ≠ []) ∧ (Letters w' ∧ w' ≠ []) ∧
    tokenResult (lookupIn dateTable (lower w)) = tokenResult (lookupIn dateTable (lower w')) := by
  obtain ⟨g, hg, v, hv, v', hv', e, e'⟩ := h
  have tab : ∀ g ∈ dayGroups, ∀ v ∈ g, (v.map smallLetter = v ∧ (∀ b ∈ v, isAlpha b = true) ∧ v ≠ []) ∧
      ∀ v' ∈ g, tokenResult (lookupIn dateTable v) = tokenResult (lookupIn dateTable v') := by decide +kernel
  obtain ⟨⟨t1, t2, t3⟩, t4⟩ := tab g hg v hv
  obtain ⟨⟨t1', t2', t3'⟩, -⟩ := tab g hg v' hv'
  rw [lower_word e t1, lower_word e' t1']
  exact ⟨small_alpha e t1 t2 t3, small_alpha e' t1' t2' t3', t4 v' hv'⟩

theorem unit_synonyms {w w' : Bytes} (h : UnitSynonyms w w') : (Letters w ∧ w ≠ []) ∧ (Letters w' ∧ w' ≠ []) ∧
    tokenResult (lookupIn deltaTable (lower w)) = tokenResult (lookupIn deltaTable (lower w')) := by
  obtain ⟨u, v, hv, v', hv', e, e'⟩ := h
  have tab : ∀ v ∈ u.spellings, ∀ v' ∈ u.spellings, tokenResult (lookupIn deltaTable (letters v)) = tokenResult (lookupIn deltaTable (letters v')) := by
    cases u <;> decide +kernel
  obtain ⟨t1, t2, t3⟩ := unit_small u v hv
  obtain ⟨t1', t2', t3'⟩ := unit_small u v' hv'
  rw [lower_word e t1, lower_word e' t1']
  exact ⟨small_alpha e t1 t2 t3, small_alpha e' t1' t2' t3', tab v hv v' hv'⟩

end Pg

namespace Props
open Pg Spec

/-- **C113, dates and times.** A word of a date in a text is replaced by another one with the same meaning: nothing changes, not
even the error. -/
theorem C113_day_partial (p : Profile) (u : TokenField) (c : Caches) (hc : c.Ok) (typmod : Int) (order : DateOrder) (s s' : Bytes)
    (h : WordExchanged DaySynonyms s s') (h1 : s.length ≤ 128) (h2 : s'.length ≤ 128) :
    Date.tryFromStr p u c s order = Date.tryFromStr p u c s' order ∧
    Time.tryFromStr p u c s typmod order = Time.tryFromStr p u c s' typmod order ∧
    Timestamp.tryFromStr p u c s typmod order = Timestamp.tryFromStr p u c s' typmod order := by
  unfold Date.tryFromStr Time.tryFromStr Timestamp.tryFromStr
  rw [(same_date p u order s c hc).1, (same_date p u order s' c hc).1, (same_time p u typmod order s c hc).1,
    (same_time p u typmod order s' c hc).1, (same_timestamp p u typmod order s c hc).1, (same_timestamp p u typmod order s' c hc).1]
  unfold Date.tryFromStrW Time.tryFromStrW Timestamp.tryFromStrW
  rcases exchanged_fields (u := u) (fun w w' => day_synonyms) h h1 h2 with ⟨e1, e2⟩ | ⟨l1, l2, x, x', e1, e2, e3, -⟩
  · rw [e1, e2]; exact ⟨rfl, rfl, rfl⟩
  · rw [e1, e2]
    simp only [St.lift_ok_bind, (decode_exchange e3 l1 l2).1, (decode_exchange e3 l1 l2).2, and_self]

/-- **C113, intervals.** A unit in a text that does not begin with `P` is spelt in another way: nothing changes. -/
theorem C113_unit (p : Profile) (u : TokenField) (c : Caches) (hc : c.Ok) (typmod : Int) (style : IntervalStyle) (s s' : Bytes)
    (h : WordExchanged UnitSynonyms s s') (h1 : s.length ≤ 128) (h2 : s'.length ≤ 128) (h3 : s.head? ≠ some 80) :
    Interval.tryFromStr p u c s typmod style = Interval.tryFromStr p u c s' typmod style := by
  have h4 : s'.head? ≠ some 80 := by
    obtain ⟨a, n, w, w', d, -, -, -, k, -, rfl, rfl⟩ := h
    cases a with
    | cons => exact h3
    | nil =>
      cases n with
      | cons => exact h3
      | nil =>
        obtain ⟨v, x, -, x', hx', -, e⟩ := k
        have tab : ∀ x ∈ v.spellings, (letters x).head?.any (fun b => b ≠ 112) = true := by cases v <;> decide +kernel
        intro hb
        have t := tab x' hx'
        cases w' with
        | nil =>
          rw [SameButCase] at e
          have := congrArg List.length e
          simp only [List.map_nil, List.length_nil, List.length_map] at this
          rw [List.length_eq_zero_iff.1 this.symm] at t
          cases t
        | cons b w' =>
          simp only [List.nil_append, List.cons_append, List.head?_cons, Option.some.injEq] at hb
          subst hb
          have q := (unit_small v x' hx').1
          rw [SameButCase, q] at e
          rw [← e] at t
          simp [smallLetter] at t
  rcases exchanged_fields (u := u) (fun w w' => unit_synonyms) h h1 h2 with ⟨e1, e2⟩ | ⟨l1, l2, x, x', e1, e2, e3, ⟨b, y, rfl, hb⟩, b', y', rfl, hb'⟩
  · unfold Interval.tryFromStr
    rw [(same_interval p u typmod style s c hc).1, (same_interval p u typmod style s' c hc).1]
    unfold Interval.tryFromStrW
    rw [e1, e2]
    rfl
  · have sg : ∀ {b}, isAlpha b = true → b ≠ 45 ∧ b ≠ 43 := by
      intro b hb
      rw [isAlpha_iff] at hb
      omega
    refine interval_alike hc e1 e2 h3 h4 ?_ ?_
    · refine List.rel_append ?_ (List.Forall₂.cons ?_ ?_)
      · exact List.forall₂_same.2 fun f _ i s => Or.inl rfl
      · intro i s
        left
        unfold intervalField
        dsimp only
        rw [look_delta e3]
      · exact List.forall₂_same.2 fun f _ i s => Or.inl rfl
    · intro t
      cases l1 with
      | nil => simp [sqlSign, (sg hb).1, (sg hb').1]
      | cons f l1 =>
        have e : ((l1 ++ (TokenField.string, b :: y) :: l2).any fun g => hasSign g.2) =
            (l1 ++ (TokenField.string, b' :: y') :: l2).any fun g => hasSign g.2 := by
          simp [hasSign, (sg hb).1, (sg hb').1, (sg hb).2, (sg hb').2]
        rw [List.cons_append, List.cons_append, sqlSign, sqlSign, e]

/-- **C113, violated.** `feb` is not known. -/
theorem C113_violated (p : Profile) (u : TokenField) (c : Caches) (hc : c.Ok) :
    Date.tryFromStr p u c b!"3 February 2024" .dmy = .ok ⟨8799⟩ ∧ Date.tryFromStr p u c b!"3 Feb 2024" .dmy = .err .invalid := by
  have s1 : scan u b!"3 February 2024" = .ok [(.number, b!"3"), (.string, b!"february"), (.number, b!"2024")] := by cases u <;> decide +kernel
  have s2 : scan u b!"3 Feb 2024" = .ok [(.number, b!"3"), (.string, b!"feb"), (.number, b!"2024")] := by cases u <;> decide +kernel
  exact ⟨date_eval p u hc .dmy s1 (by cases p <;> decide +kernel), date_eval p u hc .dmy s2 (by cases p <;> decide +kernel)⟩

/-! ## Cases -/

/-- A month name behind a number without a blank. -/
example : WordExchanged DaySynonyms b!"Tues 3sep 2024" b!"Tues 3September 2024" ∧
    ∀ p, Date.tryFromStr p .number Caches.new b!"Tues 3sep 2024" .dmy = .ok ⟨9012⟩ := by
  refine ⟨⟨b!"Tues ", b!"3", b!"sep", b!"September", b!" 2024", ?_, ?_, ?_, ?_, ?_, rfl, rfl⟩, fun p => by cases p <;> decide +kernel⟩
  · exact Or.inr ⟨32, rfl, rfl⟩
  · unfold EndsInSign; decide +kernel
  · exact Or.inr ⟨[], b!"3", [], Or.inl rfl, by decide, by unfold Digits; decide, Or.inl rfl, rfl⟩
  · exact ⟨[b!"sep", b!"sept", b!"september"], by decide, b!"sep", by decide, b!"september", by decide,
      by unfold SameButCase; decide, by unfold SameButCase; decide⟩
  · exact Or.inr ⟨32, b!"2024", rfl, rfl⟩

/-- A unit behind a signed number with a fraction, between other units. -/
example : WordExchanged UnitSynonyms b!"2 days -1.5hrs ago" b!"2 days -1.5HOUR ago" := by
  refine ⟨b!"2 days ", b!"-1.5", b!"hrs", b!"HOUR", b!" ago", ?_, ?_, ?_, ?_, ?_, rfl, rfl⟩
  · exact Or.inr ⟨32, rfl, rfl⟩
  · unfold EndsInSign; decide +kernel
  · exact Or.inr ⟨[45], b!"1", b!".5", Or.inr (Or.inr rfl), by decide, by unfold Digits; decide, Or.inr ⟨b!"5", rfl, by decide, by unfold Digits; decide⟩, rfl⟩
  · exact ⟨.hour, "hrs", by decide, "hour", by decide, by unfold SameButCase; decide +kernel, by unfold SameButCase; decide +kernel⟩
  · exact Or.inr ⟨32, b!"ago", rfl, rfl⟩

/-- A unit at the beginning of a text that is accepted. -/
example : WordExchanged UnitSynonyms b!"3d -15 hrs ago" b!"3Days -15 hrs ago" ∧
    ∀ p, Interval.tryFromStr p .number Caches.new b!"3d -15 hrs ago" (-1) .postgres = .ok ⟨0, -3, 54000000000⟩ := by
  refine ⟨⟨[], b!"3", b!"d", b!"Days", b!" -15 hrs ago", Or.inl rfl, (fun x hx => by cases hx), ?_, ?_, ?_, rfl, rfl⟩, fun p => by cases p <;> decide +kernel⟩
  · exact Or.inr ⟨[], b!"3", [], Or.inl rfl, by decide, by unfold Digits; decide, Or.inl rfl, rfl⟩
  · exact ⟨.day, "d", by decide, "days", by decide, by unfold SameButCase; decide +kernel, by unfold SameButCase; decide +kernel⟩
  · exact Or.inr ⟨32, b!"-15 hrs ago", rfl, rfl⟩

end Props
