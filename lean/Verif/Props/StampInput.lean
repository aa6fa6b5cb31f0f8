import Verif.Lemmas.StampBack
import Verif.Props.Format

/-!
# Property C36: timestamps are read back from their text

`cs` is the state of the thread's keyword caches, `u` the uninitialised type of a lone sign.
-/

namespace Props
open Pg Spec

theorem stamp_fields (p : Profile) {t : Timestamp} (ht : TsRange t.v) :
    ∃ c k, c.Real ∧ k.Real ∧ instant c k = t.v := by
  obtain ⟨c, hr, hn, -⟩ := fields_spec p ht
  exact ⟨c, clockOf t.v, hr, clockOf_real _, instant_fields hn⟩

/-- **C36 (partial).** In the styles ISO and XSD with any order, SQL with DMY and MDY, and German with DMY,
every valid finite timestamp is read back from its text; in the Postgres style, with any order, every one
that is not in February. Missing: the other combinations, for which it is false (see below). -/
theorem C36_partial (p p' : Profile) (u : TokenField) (cs : Caches) (hcs : cs.Ok) (junk : Bytes)
    (hj : junk.length = 128) (c : YMD) (t : Clock) (hr : c.Real) (ht : t.Real) (hts : TsRange (instant c t))
    (st : DateStyle) (o : DateOrder)
    (h : st = .iso ∨ st = .xsd ∨ (st = .sql ∧ o ≠ .ymd) ∨ (st = .german ∧ o = .dmy) ∨
      (st = .postgres ∧ c.m ≠ 2)) :
    ∃ text, (⟨instant c t⟩ : Timestamp).format p junk st o = .ok text ∧
      Timestamp.tryFromStr p' u cs text (-1) o = .ok ⟨instant c t⟩ := by
  refine ⟨_, C51_timestamp p junk hj c t hr ht hts st o, ?_⟩
  by_cases hpg : st = .postgres
  · subst hpg
    have hm : c.m ≠ 2 := by
      rcases h with h | h | h | h | h
      · cases h
      · cases h
      · cases h.1
      · cases h.1
      · exact h.2
    have := timestamp_pg p' u hcs o hr ht hts
    rwa [if_neg hm] at this
  · have hro : readsBack st o = true := by
      rcases h with rfl | rfl | ⟨rfl, h⟩ | ⟨rfl, rfl⟩ | ⟨rfl, h⟩ <;> first
        | rfl
        | (cases o <;> first | rfl | exact absurd rfl h | exact absurd rfl hpg)
    have hp := timestampText_parse p' u hcs hpg o o hr ht hts
    rw [inputDay_parts hro hr] at hp
    simp only at hp
    rwa [if_pos hts] at hp

/-- Every valid finite timestamp is one of those of `C36_partial`. -/
theorem C36_every (t : Timestamp) (ht : TsRange t.v) :
    ∃ c k, c.Real ∧ k.Real ∧ t = ⟨instant c k⟩ := by
  obtain ⟨c, k, h1, h2, h3⟩ := stamp_fields .debug ht
  exact ⟨c, k, h1, h2, by rw [h3]⟩

/-- **C36 is violated:** in the Postgres style no timestamp in February can be read back; the keyword table
has `fe` instead of `feb`. -/
theorem C36_february_violated (p p' : Profile) (u : TokenField) (cs : Caches) (hcs : cs.Ok) (junk : Bytes)
    (hj : junk.length = 128) (c : YMD) (t : Clock) (hr : c.Real) (ht : t.Real) (hts : TsRange (instant c t))
    (h2 : c.m = 2) (o : DateOrder) :
    ∃ text, (⟨instant c t⟩ : Timestamp).format p junk .postgres o = .ok text ∧
      (Timestamp.tryFromStr p' u cs text (-1) o).IsErr := by
  refine ⟨_, C51_timestamp p junk hj c t hr ht hts .postgres o, ?_⟩
  have := timestamp_pg p' u hcs o hr ht hts
  rwa [if_pos h2] at this

/-- A reading of the text of `c` with a different day is not a reading of `c`. -/
theorem stamp_other {c day : YMD} {t : Clock} (hr : c.Real) (hr' : day.Real)
    (h : instant c t = instant day t) : c = day := by
  apply dayNumber_inj hr hr'
  unfold instant dayMicros at h
  omega

/-- **C36 is violated:** in the German style with the order MDY no timestamp whose day and month differ is
read back. -/
theorem C36_german_mdy_violated (p p' : Profile) (u : TokenField) (cs : Caches) (hcs : cs.Ok) (junk : Bytes)
    (hj : junk.length = 128) (c : YMD) (t : Clock) (hr : c.Real) (ht : t.Real) (hts : TsRange (instant c t))
    (hne : c.d ≠ c.m) :
    ∃ text, (⟨instant c t⟩ : Timestamp).format p junk .german .mdy = .ok text ∧
      Timestamp.tryFromStr p' u cs text (-1) .mdy ≠ .ok ⟨instant c t⟩ := by
  refine ⟨_, C51_timestamp p junk hj c t hr ht hts .german .mdy, ?_⟩
  have hb := real_bounds hr
  have hp := timestampText_parse p' u hcs (st := .german) (by simp) .mdy .mdy hr ht hts
  simp only [partsOf] at hp
  rw [inputDay_last _ _ _ _ (by omega) (by omega)] at hp
  simp only at hp
  intro he
  rw [he] at hp
  unfold namedDay at hp
  rw [inputYear_yearText] at hp
  simp only at hp
  by_cases hr' : (⟨c.y, c.d, c.m⟩ : YMD).Real
  · rw [if_pos hr'] at hp
    simp only at hp
    split at hp
    · injection hp with hp
      injection hp with hp
      have := stamp_other hr hr' hp
      rw [YMD.mk.injEq] at this
      exact hne this.2.2
    · obtain ⟨_, h⟩ := hp; cases h
  · rw [if_neg hr'] at hp
    obtain ⟨_, h⟩ := hp; cases h

/-- **C36 is violated:** in the styles SQL and German with the order YMD no timestamp from 1 AD on is read
back. -/
theorem C36_ymd_violated (p p' : Profile) (u : TokenField) (cs : Caches) (hcs : cs.Ok) (junk : Bytes)
    (hj : junk.length = 128) (c : YMD) (t : Clock) (hr : c.Real) (ht : t.Real) (hts : TsRange (instant c t))
    (hy : 1 ≤ c.y) (st : DateStyle) (hst : st = .sql ∨ st = .german) :
    ∃ text, (⟨instant c t⟩ : Timestamp).format p junk st .ymd = .ok text ∧
      Timestamp.tryFromStr p' u cs text (-1) .ymd ≠ .ok ⟨instant c t⟩ := by
  refine ⟨_, C51_timestamp p junk hj c t hr ht hts st .ymd, ?_⟩
  have hb := real_bounds hr
  have hp := timestampText_parse p' u hcs (st := st) (by rcases hst with rfl | rfl <;> decide) .ymd .ymd hr ht hts
  intro he
  rw [he] at hp
  have key : ∀ a b : Int, 1 ≤ a ∧ a ≤ 31 → 1 ≤ b ∧ b ≤ 31 →
      (match inputDay .ymd (two a) (two b) (yearText c.y) (decide (c.y ≤ 0)) with
        | none => (Res.ok (⟨instant c t⟩ : Timestamp)).IsErr
        | some day => if TsRange (instant day t) then Res.ok (⟨instant c t⟩ : Timestamp) = .ok ⟨instant day t⟩
            else (Res.ok (⟨instant c t⟩ : Timestamp)).IsErr) → False := by
    intro a b ha hb' h
    rw [inputDay_last _ _ _ _ (by omega) (by omega)] at h
    simp only at h
    have hva := two_value (v := a) (by omega)
    have hvy := yearText_value c.y
    rw [if_pos (by omega)] at hvy
    have hiy : inputYear (two a) (decide (c.y ≤ 0)) = some (a + 2000) := by
      unfold inputYear
      rw [if_neg (by simp; omega), if_pos (by rw [two_len (by omega)]), if_pos (by omega), hva]
    unfold namedDay at h
    rw [hiy, hvy] at h
    simp only at h
    by_cases hr' : (⟨a + 2000, b, c.y⟩ : YMD).Real
    · rw [if_pos hr'] at h
      simp only at h
      split at h
      · injection h with h
        injection h with h
        have := stamp_other hr hr' h
        have e1 := congrArg YMD.y this
        have e2 := real_bounds hr'
        simp only at e1 e2
        omega
      · obtain ⟨_, h⟩ := h; cases h
    · rw [if_neg hr'] at h
      obtain ⟨_, h⟩ := h; cases h
  rcases hst with rfl | rfl
  · exact key c.m c.d (by omega) (by omega) hp
  · exact key c.d c.m (by omega) (by omega) hp

example : (⟨762566400123000⟩ : Timestamp).format .debug (List.replicate 128 7) .postgres .dmy =
      .ok b!"Fri 01 Mar 00:00:00.123 2024" ∧
    Timestamp.tryFromStr .debug .date Caches.new b!"Fri 01 Mar 00:00:00.123 2024" (-1) .dmy =
      .ok ⟨762566400123000⟩ ∧ instant ⟨2024, 3, 1⟩ ⟨0, 0, 0, 123000⟩ = 762566400123000 ∧
    TsRange 762566400123000 := by decide +kernel
example : timestampText .postgres .mdy ⟨2024, 2, 29⟩ ⟨1, 2, 3, 0⟩ = b!"Thu Feb 29 01:02:03 2024" ∧
    Timestamp.tryFromStr .debug .date Caches.new b!"Thu Feb 29 01:02:03 2024" (-1) .mdy = .err .invalid := by
  decide +kernel
example : Timestamp.tryFromStr .debug .date Caches.new b!"0044-03-15 12:00:00 BC" (-1) .dmy =
    .ok ⟨instant ⟨-43, 3, 15⟩ ⟨12, 0, 0, 0⟩⟩ := by decide +kernel
example : timestampText .german .mdy ⟨2024, 3, 5⟩ ⟨1, 2, 3, 0⟩ = b!"05.03.2024 01:02:03" ∧
    Timestamp.tryFromStr .debug .date Caches.new b!"05.03.2024 01:02:03" (-1) .mdy =
      .ok ⟨instant ⟨2024, 5, 3⟩ ⟨1, 2, 3, 0⟩⟩ := by decide +kernel

end Props
