import Verif.Lemmas.Spaces
import Verif.Lemmas.Plain
import Verif.Lemmas.CaseDecode
import Verif.Lemmas.ParseRun

/-!
# C64, C65, C66: white space, foreign bytes and letter case in texts
-/

namespace Props
open Pg Spec

/-- **C64.** Two nonempty texts with the same words in the same order are read alike as a date, a time and a
timestamp, whatever the white space before, between and after the words: the same value, the same error, also
the same panic. Missing: if only one of them ends in a full stop; there it is false
(`C64_full_stop_violated`). -/
theorem C64_partial (p : Profile) (u : TokenField) (c : Caches) (s t : Bytes) (hs : s ≠ []) (ht : t ≠ [])
    (h : words s = words t) (hd : EndsInDot s ↔ EndsInDot t) (order : DateOrder) (typmod : Int) :
    Date.tryFromStr p u c s order = Date.tryFromStr p u c t order ∧
    Time.tryFromStr p u c s typmod order = Time.tryFromStr p u c t typmod order ∧
    Timestamp.tryFromStr p u c s typmod order = Timestamp.tryFromStr p u c t typmod order := by
  have e := scan_words u hs ht h hd
  unfold Date.tryFromStr Time.tryFromStr Timestamp.tryFromStr
  unfold Date.tryFromStrW Time.tryFromStrW Timestamp.tryFromStrW
  rw [e]
  exact ⟨rfl, rfl, rfl⟩

/-- **C64** for intervals, except that in addition neither text may start with `P`; for those it is false
(`C64_iso_violated`). -/
theorem C64_interval_partial (p : Profile) (u : TokenField) (c : Caches) (s t : Bytes) (hs : s ≠ []) (ht : t ≠ [])
    (h : words s = words t) (hd : EndsInDot s ↔ EndsInDot t) (ps : s.head? ≠ some 80) (pt : t.head? ≠ some 80)
    (typmod : Int) (style : IntervalStyle) :
    Interval.tryFromStr p u c s typmod style = Interval.tryFromStr p u c t typmod style := by
  have e := scan_words u hs ht h hd
  have i : decodeIsoInterval p s = decodeIsoInterval p t := by
    unfold decodeIsoInterval
    rw [if_pos (.inr ps), if_pos (.inr pt)]
  unfold Interval.tryFromStr Interval.tryFromStrW
  rw [e, i]

example : words b!"4 July 2020" = words b!"\t4  July\n2020  " ∧ ¬ EndsInDot b!"4 July 2020" ∧
    ¬ EndsInDot b!"\t4  July\n2020  " ∧
    Date.tryFromStr .debug .number Caches.new b!"\t4  July\n2020  " .mdy = .ok ⟨7490⟩ := by
  refine ⟨by decide, by unfold EndsInDot; decide, by unfold EndsInDot; decide, ?_⟩
  have hs : scan .number b!"\t4  July\n2020  " = .ok [(.number, b!"4"), (.string, b!"july"), (.number, b!"2020")] := by
    decide +kernel
  exact date_eval .debug .number Caches.ok_new .mdy hs (by decide +kernel)

/-- **C64 is violated** by a full stop at the end: `2024-01-01 1205.` is five past twelve, with a space behind
it is an error. -/
theorem C64_full_stop_violated (p : Profile) (u : TokenField) (c : Caches) (hc : c.Ok) (order : DateOrder) :
    Timestamp.tryFromStr p u c b!"2024-01-01 1205." (-1) order = .ok ⟨757425900000000⟩ ∧
    Timestamp.tryFromStr p u c b!"2024-01-01 1205. " (-1) order = .err .invalid := by
  have h1 : scan u b!"2024-01-01 1205." = .ok [(.date, b!"2024-01-01"), (.number, b!"1205.")] := by
    cases u <;> decide +kernel
  have h2 : scan u b!"2024-01-01 1205. " = .ok [(.date, b!"2024-01-01"), (.date, b!"1205.")] := by
    cases u <;> decide +kernel
  exact ⟨timestamp_eval p u hc (-1) order h1 (by cases p <;> cases order <;> decide +kernel),
    timestamp_eval p u hc (-1) order h2 (by cases p <;> cases order <;> decide +kernel)⟩

/-- **C64 is violated** by intervals in the ISO 8601 format: a space before or after the text makes it an
error. -/
theorem C64_iso_violated (p : Profile) (u : TokenField) (c : Caches) (hc : c.Ok) (style : IntervalStyle) :
    Interval.tryFromStr p u c b!"P1Y2M" (-1) style = .ok ⟨14, 0, 0⟩ ∧
    Interval.tryFromStr p u c b!" P1Y2M" (-1) style = .err .invalid ∧
    Interval.tryFromStr p u c b!"P1Y2M " (-1) style = .err .invalid := by
  have h1 : scan u b!"P1Y2M" = .ok [(.date, b!"p1Y2M")] := by cases u <;> decide +kernel
  have h2 : scan u b!" P1Y2M" = .ok [(.date, b!"p1Y2M")] := by cases u <;> decide +kernel
  have h3 : scan u b!"P1Y2M " = .ok [(.date, b!"p1Y2M")] := by cases u <;> decide +kernel
  exact ⟨interval_eval p u hc (-1) style h1 (by cases p <;> cases style <;> decide +kernel),
    interval_eval p u hc (-1) style h2 (by cases p <;> cases style <;> decide +kernel),
    interval_eval p u hc (-1) style h3 (by cases p <;> cases style <;> decide +kernel)⟩

/-- **C65.** A text with a byte that is neither printable ASCII nor white space is never read as a value; up to
128 bytes it is an error (longer texts can panic, C43). -/
theorem C65 (p : Profile) (u : TokenField) (c : Caches) (s : Bytes) (b : Nat) (hb : b ∈ s)
    (hp : ¬ (33 ≤ b ∧ b ≤ 126)) (hw : ¬ White b = true) (order : DateOrder) (style : IntervalStyle) (typmod : Int) :
    (∀ v, Date.tryFromStr p u c s order ≠ .ok v) ∧ (∀ v, Time.tryFromStr p u c s typmod order ≠ .ok v) ∧
    (∀ v, Timestamp.tryFromStr p u c s typmod order ≠ .ok v) ∧
    (∀ v, Interval.tryFromStr p u c s typmod style ≠ .ok v) ∧
    (s.length ≤ 128 → (Date.tryFromStr p u c s order).IsErr ∧ (Time.tryFromStr p u c s typmod order).IsErr ∧
      (Timestamp.tryFromStr p u c s typmod order).IsErr ∧ (Interval.tryFromStr p u c s typmod style).IsErr) := by
  have hn : ∀ l, scan u s ≠ .ok l := by
    intro l hl
    rcases scan_plain hl b hb with h | h
    · exact hp h
    · exact hw h
  have hn' : s.length ≤ 128 → scan u s ≠ .panic := by
    intro hl
    unfold scan
    by_cases he : s.isEmpty = true
    · rw [if_pos he]; exact fun h => by cases h
    · rw [if_neg he]
      rcases scanLoop_spec u (s.length + 1) s 128 0 (by omega) hl with e | ⟨l', e, hk, hne⟩ <;>
      · rw [e]; exact fun h => by cases h
  unfold Date.tryFromStr Time.tryFromStr Timestamp.tryFromStr Interval.tryFromStr
  unfold Date.tryFromStrW Time.tryFromStrW Timestamp.tryFromStrW Interval.tryFromStrW
  cases hs : scan u s with
  | ok l => exact absurd hs (hn l)
  | panic =>
    refine ⟨fun v h => (by cases h), fun v h => (by cases h), fun v h => (by cases h), fun v h => (by cases h),
      fun hl => absurd hs (hn' hl)⟩
  | err e =>
    exact ⟨fun v h => (by cases h), fun v h => (by cases h), fun v h => (by cases h), fun v h => (by cases h),
      fun _ => ⟨⟨e, rfl⟩, ⟨e, rfl⟩, ⟨e, rfl⟩, ⟨e, rfl⟩⟩⟩

example : ¬ (33 ≤ 195 ∧ 195 ≤ 126) ∧ ¬ White 195 = true ∧
    195 ∈ ([50, 48, 50, 52, 45, 48, 49, 45, 48, 49, 195, 160] : Bytes) := by decide

/-- The same result, or both are errors. -/
def SameOrErr {α : Type} (r q : Res α) : Prop := r = q ∨ (r.IsErr ∧ q.IsErr)

theorem agree_two {C α : Type} {m n k : St C α} (h1 : Agree m k) (h2 : Agree n k) (c : C) : SameOrErr (m c).1 (n c).1 := by
  rcases h1 c with e | ⟨a, b⟩
  · rcases h2 c with e' | ⟨a', b'⟩
    · exact .inl (by rw [e, e'])
    · exact .inr ⟨by rw [e]; exact b', a'⟩
  · rcases h2 c with e' | ⟨a', -⟩
    · exact .inr ⟨a, by rw [e']; exact b⟩
    · exact .inr ⟨a, a'⟩

theorem lowerB_small (b : Nat) : lowerB b = smallLetter b := by
  unfold lowerB smallLetter isUpper
  simp only [Bool.and_eq_true, decide_eq_true_eq]

theorem lowerB_of_same {s t : Bytes} (h : SameButCase s t) : s.map Pg.lowerB = t.map Pg.lowerB := by
  rw [show Pg.lowerB = smallLetter from funext lowerB_small]
  exact h

/-- **C66.** Two texts that differ only in the case of letters are read as the same date, time or timestamp, or
both are errors. Intervals are below. -/
theorem C66_dates (p : Profile) (u : TokenField) (c : Caches) (hk : c.Ok) (s t : Bytes) (hc : SameButCase s t)
    (order : DateOrder) (typmod : Int) :
    SameOrErr (Date.tryFromStr p u c s order) (Date.tryFromStr p u c t order) ∧
    SameOrErr (Time.tryFromStr p u c s typmod order) (Time.tryFromStr p u c t typmod order) ∧
    SameOrErr (Timestamp.tryFromStr p u c s typmod order) (Timestamp.tryFromStr p u c t typmod order) := by
  have h' : lower s = lower t := lowerB_of_same hc
  refine ⟨?_, ?_, ?_⟩
  · unfold Date.tryFromStr
    rw [(same_date p u order s c hk).1, (same_date p u order t c hk).1]
    exact agree_two (agree_date p u order s) (h' ▸ agree_date p u order t) ()
  · unfold Time.tryFromStr
    rw [(same_time p u typmod order s c hk).1, (same_time p u typmod order t c hk).1]
    exact agree_two (agree_time p u typmod order s) (h' ▸ agree_time p u typmod order t) ()
  · unfold Timestamp.tryFromStr
    rw [(same_timestamp p u typmod order s c hk).1, (same_timestamp p u typmod order t c hk).1]
    exact agree_two (agree_timestamp p u typmod order s) (h' ▸ agree_timestamp p u typmod order t) ()

/-- **C66** for intervals, except texts that start with `P` or `p`, for which it is false
(`C66_iso_violated`). For the others even the error is the same. -/
theorem C66_interval_partial (p : Profile) (u : TokenField) (c : Caches) (s t : Bytes)
    (hc : SameButCase s t) (hp : s.head? ≠ some 80 ∧ s.head? ≠ some 112) (typmod : Int) (style : IntervalStyle) :
    Interval.tryFromStr p u c s typmod style = Interval.tryFromStr p u c t typmod style := by
  have h : s.map lowerB = t.map lowerB := lowerB_of_same hc
  have h' : lower s = lower t := h
  have hp : ∀ b, s.head? = some b → lowerB b ≠ 112 := by
    intro b hb e
    rw [lowerB_small, smallLetter] at e
    split at e
    · exact hp.1 (by rw [hb]; congr 1; omega)
    · exact hp.2 (by rw [hb, e])
  have iso : ∀ x, (∀ b, x.head? = some b → lowerB b ≠ 112) → decodeIsoInterval p x = decodeIsoInterval p [] := by
    intro x hx
    unfold decodeIsoInterval
    rw [if_pos (.inr (fun hh => hx 80 hh rfl)), if_pos (.inl (by simp))]
  have one : ∀ x, (∀ b, x.head? = some b → lowerB b ≠ 112) →
      Interval.tryFromStrW p cachedLook u typmod style x = Interval.tryFromStrW p cachedLook u typmod style (lower x) := by
    intro x hx
    have hx' : ∀ b, (lower x).head? = some b → lowerB b ≠ 112 := by
      cases x with
      | nil => exact hx
      | cons a r =>
        intro b hb
        cases hb
        rw [lowerB_idem]
        exact hx a rfl
    unfold Interval.tryFromStrW
    rw [iso x hx, iso _ hx', scan_lower]
    cases hs : scan u x with
    | err e => rfl
    | panic => rfl
    | ok l =>
      funext c
      rw [Res.map, St.lift_ok_bind, St.lift_ok_bind, decodeInterval_lower p cachedLook _ style (scan_tidy hs)]
  have ht : ∀ b, t.head? = some b → lowerB b ≠ 112 := by
    intro b hb
    cases t with
    | nil => cases hb
    | cons x r =>
      cases s with
      | nil => cases h
      | cons y q =>
        cases hb
        have : lowerB y = lowerB b := by injection h
        rw [← this]
        exact hp y rfl
  unfold Interval.tryFromStr
  rw [one s hp, one t ht, h']

example : SameButCase b!"4 JULY 2020 10 Pm" b!"4 july 2020 10 pM" ∧ SameButCase b!"1 Day AGO" b!"1 day ago" := by
  unfold SameButCase; decide

/-- **C66 is violated** by intervals in the ISO 8601 format: only capital letters are accepted. -/
theorem C66_iso_violated (p : Profile) (u : TokenField) (c : Caches) (hc : c.Ok) (style : IntervalStyle) :
    Interval.tryFromStr p u c b!"P1Y2M" (-1) style = .ok ⟨14, 0, 0⟩ ∧
    Interval.tryFromStr p u c b!"p1y2m" (-1) style = .err .invalid ∧
    Interval.tryFromStr p u c b!"P1y2M" (-1) style = .err .invalid := by
  have h1 : scan u b!"P1Y2M" = .ok [(.date, b!"p1Y2M")] := by cases u <;> decide +kernel
  have h2 : scan u b!"p1y2m" = .ok [(.date, b!"p1y2m")] := by cases u <;> decide +kernel
  have h3 : scan u b!"P1y2M" = .ok [(.date, b!"p1y2M")] := by cases u <;> decide +kernel
  exact ⟨interval_eval p u hc (-1) style h1 (by cases p <;> cases style <;> decide +kernel),
    interval_eval p u hc (-1) style h2 (by cases p <;> cases style <;> decide +kernel),
    interval_eval p u hc (-1) style h3 (by cases p <;> cases style <;> decide +kernel)⟩

end Props
