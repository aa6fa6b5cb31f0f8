import Verif.Lemmas.StampParts
import Verif.Props.StampInput
import Verif.Props.Timestamps

/-!
# Property C82: the text of a timestamp read as a date and as a time of day

Casting a timestamp to its text and reading the text as a date or a time of day should be the same as converting the
timestamp. `cs` is the state of the thread's keyword caches, `u` the uninitialised type of a lone sign.
-/

namespace Props
open Pg Spec

theorem stamp_parts (p : Profile) {c : YMD} {t : Clock} (ht : t.Real) (h : TsRange (instant c t)) :
    Date.ofTimestamp p ⟨instant c t⟩ = .ok ⟨dayNumber c⟩ ∧
    Time.ofTimestamp p ⟨instant c t⟩ = .ok (some ⟨t.micros⟩) := by
  have hm := micros_bounds ht
  rw [ofTimestamp_eq p ⟨instant c t⟩ h, timeOfTimestamp_eq p ⟨instant c t⟩ h]
  unfold instant dayMicros at *
  dsimp only
  refine ⟨?_, ?_⟩
  · congr 2; omega
  · congr 3; omega

/-- **C82, dates (partial).** In the styles ISO and XSD with any order, SQL with DMY and MDY, German with DMY, and
Postgres outside February, the text of every finite timestamp is read as the date that the conversion from timestamp to
date gives. Missing: the other combinations, whose texts are not read back as timestamps either (see C36). -/
theorem C82_date_partial (p p' : Profile) (u : TokenField) (cs : Caches) (hcs : cs.Ok) (junk : Bytes)
    (hj : junk.length = 128) (c : YMD) (t : Clock) (hr : c.Real) (ht : t.Real) (hts : TsRange (instant c t))
    (st : DateStyle) (o : DateOrder)
    (h : st = .iso ∨ st = .xsd ∨ (st = .sql ∧ o ≠ .ymd) ∨ (st = .german ∧ o = .dmy) ∨
      (st = .postgres ∧ c.m ≠ 2)) :
    ∃ text d, (⟨instant c t⟩ : Timestamp).format p junk st o = .ok text ∧
      Date.ofTimestamp p ⟨instant c t⟩ = .ok d ∧ Date.tryFromStr p' u cs text o = .ok d := by
  refine ⟨_, _, C51_timestamp p junk hj c t hr ht hts st o, (stamp_parts p ht hts).1, ?_⟩
  by_cases hpg : st = .postgres
  · subst hpg
    have hm : c.m ≠ 2 := by
      rcases h with h | h | h | h | h
      · cases h
      · cases h
      · cases h.1
      · cases h.1
      · exact h.2
    have := stampText_pg_date p' u hcs o hr ht hts
    rwa [if_neg hm] at this
  · refine stampText_date p' u hcs hpg ?_ hr ht hts
    rcases h with rfl | rfl | ⟨rfl, h⟩ | ⟨rfl, rfl⟩ | ⟨rfl, -⟩
    · rfl
    · rfl
    · cases o <;> first | rfl | exact absurd rfl h
    · rfl
    · exact absurd rfl hpg

/-- **C82, times (partial).** In the ISO style with any order, SQL with DMY and MDY, and German with DMY, the text of
every finite timestamp is read as the time of day that the conversion from timestamp to time gives. Missing: the styles
XSD and Postgres, for which it is false (below), and the combinations whose texts are not read back (see C36). -/
theorem C82_time_partial (p p' : Profile) (u : TokenField) (cs : Caches) (hcs : cs.Ok) (junk : Bytes)
    (hj : junk.length = 128) (c : YMD) (t : Clock) (hr : c.Real) (ht : t.Real) (hts : TsRange (instant c t))
    (st : DateStyle) (o : DateOrder)
    (h : st = .iso ∨ (st = .sql ∧ o ≠ .ymd) ∨ (st = .german ∧ o = .dmy)) :
    ∃ text k, (⟨instant c t⟩ : Timestamp).format p junk st o = .ok text ∧
      Time.ofTimestamp p ⟨instant c t⟩ = .ok (some k) ∧ Time.tryFromStr p' u cs text (-1) o = .ok k := by
  refine ⟨_, _, C51_timestamp p junk hj c t hr ht hts st o, (stamp_parts p ht hts).2, ?_⟩
  refine stampText_time p' u hcs ?_ ?_ ?_ hr ht hts <;>
    rcases h with rfl | ⟨rfl, h⟩ | ⟨rfl, rfl⟩ <;> first
      | decide
      | rfl
      | (cases o <;> first | rfl | exact absurd rfl h)

example : (⟨2024, 2, 29⟩ : YMD).Real ∧ (⟨4, 5, 6, 70000⟩ : Clock).Real ∧
    TsRange (instant ⟨2024, 2, 29⟩ ⟨4, 5, 6, 70000⟩) ∧
    (⟨instant ⟨2024, 2, 29⟩ ⟨4, 5, 6, 70000⟩⟩ : Timestamp).format .debug (List.replicate 128 7) .sql .dmy =
      .ok b!"29/02/2024 04:05:06.07" ∧
    Date.tryFromStr .debug .date Caches.new b!"29/02/2024 04:05:06.07" .dmy = .ok ⟨dayNumber ⟨2024, 2, 29⟩⟩ ∧
    Time.tryFromStr .debug .date Caches.new b!"29/02/2024 04:05:06.07" (-1) .dmy = .ok ⟨14706070000⟩ := by
  decide +kernel

/-- **C82 is violated:** in the styles XSD and Postgres no text of a timestamp is read as a time of day, whatever the
timestamp and the orders. -/
theorem C82_time_violated (p p' : Profile) (u : TokenField) (cs : Caches) (hcs : cs.Ok) (junk : Bytes)
    (hj : junk.length = 128) (c : YMD) (t : Clock) (hr : c.Real) (ht : t.Real) (hts : TsRange (instant c t))
    (st : DateStyle) (o o' : DateOrder) (h : st = .xsd ∨ st = .postgres) :
    ∃ text, (⟨instant c t⟩ : Timestamp).format p junk st o = .ok text ∧
      (Time.tryFromStr p' u cs text (-1) o').IsErr := by
  refine ⟨_, C51_timestamp p junk hj c t hr ht hts st o, ?_⟩
  rcases h with rfl | rfl
  · exact stampText_xsd p' u hcs o o' hr ht hts
  · exact stampText_pg_time p' u hcs o o' hr ht hts

example : (⟨instant ⟨2024, 3, 1⟩ ⟨4, 5, 6, 0⟩⟩ : Timestamp).format .debug (List.replicate 128 7) .xsd .dmy =
      .ok b!"2024-03-01T04:05:06" ∧
    Time.tryFromStr .debug .date Caches.new b!"2024-03-01T04:05:06" (-1) .dmy = .err .invalid ∧
    Date.tryFromStr .debug .date Caches.new b!"2024-03-01T04:05:06" .dmy = .ok ⟨dayNumber ⟨2024, 3, 1⟩⟩ := by
  decide +kernel

end Props
