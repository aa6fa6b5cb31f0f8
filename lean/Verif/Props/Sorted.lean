import Verif.Lemmas.Sorted
import Verif.Props.Format

/-!
# Property C79: ISO texts sort like the values

`<` on texts is the lexicographic order of their bytes, as in Rust. `junk` is the content of the
uninitialised 128-byte output buffer.
-/

namespace Props
open Pg Spec

/-- A strict order that keeps `<` one way keeps it both ways. -/
theorem iff_of_mono {a b : Int} {s t : Bytes} (h : a < b → s < t) (h' : b < a → t < s) (he : a = b → s = t) : s < t ↔ a < b := by
  refine ⟨fun hlt => ?_, h⟩
  rcases lt_trichotomy a b with k | k | k
  · exact k
  · rw [he k] at hlt; exact absurd hlt (List.lt_irrefl _)
  · exact absurd hlt (List.lt_asymm (h' k))

theorem year_of_range {c : YMD} (hc : c.Real) (h : dayNumber ⟨1, 1, 1⟩ ≤ dayNumber c) (h' : dayNumber c ≤ dayNumber ⟨9999, 12, 31⟩) :
    1 ≤ c.y ∧ c.y ≤ 9999 := by
  have h1 := mt (dayNumber_lt_iff (a := c) (b := ⟨1, 1, 1⟩) hc (by decide)).2 (by omega)
  have h2 := mt (dayNumber_lt_iff (a := ⟨9999, 12, 31⟩) (b := c) (by decide) hc).2 (by omega)
  unfold YMD.lt at h1 h2
  dsimp only at h1 h2
  omega

theorem dateText_iso {st : DateStyle} (hs : st = .iso ∨ st = .xsd) (o : DateOrder) {c : YMD} (h : 1 ≤ c.y) :
    dateText st o c = dayText .iso o c ++ [] := by
  unfold dateText eraText
  rw [if_neg (by omega)]
  rcases hs with rfl | rfl <;> rfl

/-- **C79.** In the ISO and XSD styles the texts of two dates of the years 1 to 9999 sort like the dates. -/
theorem C79_date (p p' : Profile) (junk junk' : Bytes) (hj : junk.length = 128) (hj' : junk'.length = 128) (d d' : Date)
    (h : dayNumber ⟨1, 1, 1⟩ ≤ d.v ∧ d.v ≤ dayNumber ⟨9999, 12, 31⟩) (h' : dayNumber ⟨1, 1, 1⟩ ≤ d'.v ∧ d'.v ≤ dayNumber ⟨9999, 12, 31⟩)
    (st : DateStyle) (hs : st = .iso ∨ st = .xsd) (o o' : DateOrder) :
    ∃ s s' : Bytes, d.format p junk st o = .ok s ∧ d'.format p' junk' st o' = .ok s' ∧ (s < s' ↔ d.v < d'.v) := by
  have k1 : dayNumber ⟨1, 1, 1⟩ = -730119 := by decide
  have k2 : dayNumber ⟨9999, 12, 31⟩ = 2921939 := by decide
  obtain ⟨c, hr, hn, he⟩ := date_format_eq p junk hj d ((dateRange_iff _).2 (by omega)) st o
  obtain ⟨c', hr', hn', he'⟩ := date_format_eq p' junk' hj' d' ((dateRange_iff _).2 (by omega)) st o'
  have hy := year_of_range hr (by omega) (by omega)
  have hy' := year_of_range hr' (by omega) (by omega)
  refine ⟨_, _, he, he', ?_⟩
  rw [dateText_iso hs o hy.1, dateText_iso hs o' hy'.1, ← hn, ← hn', show dayText .iso o' c' = dayText .iso o c' from rfl]
  refine iff_of_mono (fun k => ?_) (fun k => ?_) (fun k => ?_)
  · exact dayText_lt hr hr' hy hy' o (.inl ((dayNumber_lt_iff hr hr').1 k))
  · exact dayText_lt hr' hr hy' hy o (.inl ((dayNumber_lt_iff hr' hr).1 k))
  · rw [dayNumber_inj hr hr' k]

example : dayNumber ⟨1, 1, 1⟩ ≤ dayNumber ⟨2024, 2, 29⟩ ∧ dayNumber ⟨2024, 2, 29⟩ ≤ dayNumber ⟨9999, 12, 31⟩ := by decide
example : (⟨8825⟩ : Date).format .debug (List.replicate 128 7) .iso .mdy = .ok b!"2024-02-29" ∧
    (⟨8826⟩ : Date).format .debug (List.replicate 128 7) .iso .mdy = .ok b!"2024-03-01" ∧ b!"2024-02-29" < b!"2024-03-01" := by
  decide +kernel

theorem timestampText_iso {st : DateStyle} (hs : st = .iso ∨ st = .xsd) : ∃ x : Nat, ∀ (o : DateOrder) (c : YMD) (t : Clock), 1 ≤ c.y →
    timestampText st o c t = dayText .iso .ymd c ++ ([x] ++ clockText t) := by
  rcases hs with rfl | rfl
  · refine ⟨32, fun o c t h => ?_⟩
    unfold timestampText eraText
    rw [if_neg (by omega), List.append_nil]
    cases o <;> rfl
  · refine ⟨84, fun o c t h => ?_⟩
    unfold timestampText eraText
    rw [if_neg (by omega), List.append_nil]
    cases o <;> rfl

/-- **C79.** The same for timestamps. -/
theorem C79_timestamp (p p' : Profile) (junk junk' : Bytes) (hj : junk.length = 128) (hj' : junk'.length = 128) (t t' : Timestamp)
    (h : instant ⟨1, 1, 1⟩ ⟨0, 0, 0, 0⟩ ≤ t.v ∧ t.v ≤ instant ⟨9999, 12, 31⟩ ⟨23, 59, 59, 999999⟩)
    (h' : instant ⟨1, 1, 1⟩ ⟨0, 0, 0, 0⟩ ≤ t'.v ∧ t'.v ≤ instant ⟨9999, 12, 31⟩ ⟨23, 59, 59, 999999⟩)
    (st : DateStyle) (hs : st = .iso ∨ st = .xsd) (o o' : DateOrder) :
    ∃ s s' : Bytes, t.format p junk st o = .ok s ∧ t'.format p' junk' st o' = .ok s' ∧ (s < s' ↔ t.v < t'.v) := by
  have k1 : instant ⟨1, 1, 1⟩ ⟨0, 0, 0, 0⟩ = -730119 * 86400000000 := by decide
  have k2 : instant ⟨9999, 12, 31⟩ ⟨23, 59, 59, 999999⟩ = 2921940 * 86400000000 - 1 := by decide
  have k3 : dayNumber ⟨1, 1, 1⟩ = -730119 := by decide
  have k4 : dayNumber ⟨9999, 12, 31⟩ = 2921939 := by decide
  have key : ∀ (p : Profile) (junk : Bytes) (_ : junk.length = 128) (t : Timestamp) (_ : -730119 * 86400000000 ≤ t.v ∧
      t.v ≤ 2921940 * 86400000000 - 1) (o : DateOrder), ∃ c k, c.Real ∧ k.Real ∧ instant c k = t.v ∧ 1 ≤ c.y ∧ c.y ≤ 9999 ∧
        t.format p junk st o = .ok (timestampText st o c k) := by
    intro p junk hj t h o
    have ht : TsRange t.v := (tsRange_iff _).2 (by omega)
    obtain ⟨c, hr, hn, -⟩ := fields_spec p ht
    have hi := instant_fields hn
    have hf := C51_timestamp p junk hj c (clockOf t.v) hr (clockOf_real _) (by rw [hi]; exact ht) st o
    rw [hi] at hf
    have hy := year_of_range hr (by omega) (by omega)
    exact ⟨c, clockOf t.v, hr, clockOf_real _, hi, hy.1, hy.2, hf⟩
  obtain ⟨c, k, hr, hk, hi, hy1, hy2, he⟩ := key p junk hj t (by omega) o
  obtain ⟨c', k', hr', hk', hi', hy1', hy2', he'⟩ := key p' junk' hj' t' (by omega) o'
  obtain ⟨x, hx⟩ := timestampText_iso hs
  refine ⟨_, _, he, he', ?_⟩
  rw [hx o c k hy1, hx o' c' k' hy1', ← hi, ← hi']
  have mono : ∀ (c c' : YMD) (k k' : Clock), c.Real → c'.Real → k.Real → k'.Real → (1 ≤ c.y ∧ c.y ≤ 9999) → (1 ≤ c'.y ∧ c'.y ≤ 9999) →
      instant c k < instant c' k' → dayText .iso .ymd c ++ ([x] ++ clockText k) < dayText .iso .ymd c' ++ ([x] ++ clockText k') := by
    intro c c' k k' hr hr' hk hk' hy hy' hlt
    have m1 := micros_bounds hk
    have m2 := micros_bounds hk'
    refine dayText_lt hr hr' hy hy' .ymd ?_
    rcases lt_trichotomy (dayNumber c) (dayNumber c') with e | e | e
    · exact .inl ((dayNumber_lt_iff hr hr').1 e)
    · refine .inr ⟨dayNumber_inj hr hr' e, List.append_left_lt (clockText_lt (.inl hk) (.inl hk') ?_)⟩
      unfold instant at hlt
      rw [e] at hlt
      omega
    · exfalso
      unfold instant dayMicros at hlt
      omega
  refine iff_of_mono (mono c c' k k' hr hr' hk hk' ⟨hy1, hy2⟩ ⟨hy1', hy2'⟩) (mono c' c k' k hr' hr hk' hk ⟨hy1', hy2'⟩ ⟨hy1, hy2⟩) ?_
  intro e
  have e1 : c = c' := by
    refine dayNumber_inj hr hr' ?_
    have m1 := micros_bounds hk
    have m2 := micros_bounds hk'
    unfold instant dayMicros at e
    omega
  subst e1
  have e2 : k.micros = k'.micros := by unfold instant at e; omega
  have : k = k' := by
    obtain ⟨a1, a2, a3, a4⟩ := k
    obtain ⟨b1, b2, b3, b4⟩ := k'
    simp only [Clock.micros, Clock.Real, Clock.mk.injEq] at *
    omega
  rw [this]

example : instant ⟨1, 1, 1⟩ ⟨0, 0, 0, 0⟩ ≤ instant ⟨2024, 3, 1⟩ ⟨0, 0, 0, 120000⟩ ∧
    instant ⟨2024, 3, 1⟩ ⟨0, 0, 0, 123000⟩ ≤ instant ⟨9999, 12, 31⟩ ⟨23, 59, 59, 999999⟩ := by decide
example : (⟨762566400120000⟩ : Timestamp).format .debug (List.replicate 128 7) .xsd .mdy = .ok b!"2024-03-01T00:00:00.12" ∧
    (⟨762566400123000⟩ : Timestamp).format .debug (List.replicate 128 7) .xsd .mdy = .ok b!"2024-03-01T00:00:00.123" ∧
    b!"2024-03-01T00:00:00.12" < b!"2024-03-01T00:00:00.123" := by decide +kernel

/-- **C79.** The texts of two times sort like the times, in every style. -/
theorem C79_time (p p' : Profile) (junk junk' : Bytes) (hj : junk.length = 128) (hj' : junk'.length = 128) (t t' : Time)
    (h : 0 ≤ t.v ∧ t.v ≤ dayMicros) (h' : 0 ≤ t'.v ∧ t'.v ≤ dayMicros) (st st' : DateStyle) :
    ∃ s s' : Bytes, t.format p junk st = .ok s ∧ t'.format p' junk' st' = .ok s' ∧ (s < s' ↔ t.v < t'.v) := by
  have key : ∀ (p : Profile) (junk : Bytes) (_ : junk.length = 128) (t : Time) (_ : 0 ≤ t.v ∧ t.v ≤ dayMicros) (st : DateStyle),
      ∃ k : Clock, (k.Real ∨ k = ⟨24, 0, 0, 0⟩) ∧ k.micros = t.v ∧ t.format p junk st = .ok (clockText k) := by
    intro p junk hj t h st
    obtain ⟨v⟩ := t
    dsimp only at h
    have hk : ∃ k : Clock, (k.Real ∨ k = ⟨24, 0, 0, 0⟩) ∧ k.micros = v := by
      by_cases e : v = dayMicros
      · exact ⟨⟨24, 0, 0, 0⟩, .inr rfl, by rw [e]; decide⟩
      · refine ⟨clockOf v, .inl (clockOf_real _), ?_⟩
        rw [clockOf_micros]
        unfold dayMicros at *
        omega
    obtain ⟨k, hk, e⟩ := hk
    refine ⟨k, hk, e, ?_⟩
    subst e
    exact C51_time p junk hj k hk st
  obtain ⟨k, hk, e, hf⟩ := key p junk hj t h st
  obtain ⟨k', hk', e', hf'⟩ := key p' junk' hj' t' h' st'
  refine ⟨_, _, hf, hf', ?_⟩
  rw [← e, ← e']
  refine iff_of_mono (clockText_lt hk hk') (clockText_lt hk' hk) ?_
  intro eq
  have b : ∀ t : Clock, t.Real ∨ t = ⟨24, 0, 0, 0⟩ → 0 ≤ t.h ∧ t.h ≤ 24 ∧ 0 ≤ t.mi ∧ t.mi ≤ 59 ∧ 0 ≤ t.s ∧ t.s ≤ 59 ∧
      0 ≤ t.us ∧ t.us ≤ 999999 := by
    rintro t (h | rfl)
    · unfold Clock.Real at h; omega
    · decide
  have b1 := b k hk
  have b2 := b k' hk'
  have : k = k' := by
    clear hk hk' hf hf' e e'
    obtain ⟨a1, a2, a3, a4⟩ := k
    obtain ⟨c1, c2, c3, c4⟩ := k'
    simp only [Clock.micros, Clock.mk.injEq] at *
    omega
  rw [this]

example : (⟨86399999999⟩ : Time).format .debug (List.replicate 128 7) .sql = .ok b!"23:59:59.999999" ∧
    (⟨86400000000⟩ : Time).format .debug (List.replicate 128 7) .sql = .ok b!"24:00:00" ∧ b!"23:59:59.999999" < b!"24:00:00" := by
  decide +kernel

/-- **C79.** Why the years are bounded: the text of the year 10000 sorts before that of 9999, and
years before Christ sort backwards. -/
theorem C79_years (p : Profile) (junk : Bytes) (hj : junk.length = 128) :
    ((∃ s s' : Bytes, (⟨dayNumber ⟨9999, 12, 31⟩⟩ : Date).format p junk .iso .ymd = .ok s ∧
      (⟨dayNumber ⟨10000, 1, 1⟩⟩ : Date).format p junk .iso .ymd = .ok s' ∧ s' < s) ∧
    (∃ s s' : Bytes, (⟨dayNumber ⟨-1, 1, 1⟩⟩ : Date).format p junk .iso .ymd = .ok s ∧
      (⟨dayNumber ⟨0, 1, 1⟩⟩ : Date).format p junk .iso .ymd = .ok s' ∧ s' < s)) := by
  refine ⟨⟨_, _, C33_text p junk hj _ (by decide) (by decide) _ _, C33_text p junk hj _ (by decide) (by decide) _ _, by decide +kernel⟩,
    ⟨_, _, C33_text p junk hj _ (by decide) (by decide) _ _, C33_text p junk hj _ (by decide) (by decide) _ _, by decide +kernel⟩⟩

end Props
