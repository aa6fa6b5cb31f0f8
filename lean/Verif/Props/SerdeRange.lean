import Verif.Props.Serde
import Verif.Props.ParsedRange

/-!
# What deserialisation accepts

C95. Text is read with the same checks as `try_from_str`; an integer of a binary format is taken as it is,
without any check of the range.
-/

namespace Props
open Pg Spec

/-- The integers shown to a visitor: of 32 or 64 bits. -/
def ShowsInt (v : DeVal) (n : Int) : Prop := (v = .i32 n ∧ In32 n) ∨ (v = .i64 n ∧ In64 n)

theorem De.custom_ok {α : Type} {x : Res α} {a : α} : De.custom x = .ok a ↔ x = .ok a := by
  cases x <;> simp [De.custom]

theorem nextElem_no_panic {conv : Elem → De Int} (h : ∀ e, conv e ≠ .panic) (n : Nat) (l : List Elem) :
    nextElem conv n l ≠ .panic := by
  cases l with
  | nil => exact nofun
  | cons e r => exact De.bind_ne_panic (h e) (fun _ => nofun)

theorem visitSeq_no_panic (l : List Elem) : Interval.visitSeq l ≠ .panic := by
  have h64 : ∀ e : Elem, e.toI64 ≠ .panic := by
    intro e; cases e with
    | int v => unfold Elem.toI64; dsimp only; split <;> exact nofun
    | other => exact nofun
  have h32 : ∀ e : Elem, e.toI32 ≠ .panic := by
    intro e; cases e with
    | int v => unfold Elem.toI32; dsimp only; split <;> exact nofun
    | other => exact nofun
  unfold Interval.visitSeq
  refine De.bind_ne_panic (nextElem_no_panic h64 _ _) (fun a => ?_)
  refine De.bind_ne_panic (nextElem_no_panic h32 _ _) (fun b => ?_)
  exact De.bind_ne_panic (nextElem_no_panic h32 _ _) (fun _ => nofun)

/-- **C95, text.** A date, time or timestamp deserialised from text is in the range of its type or infinite;
a time may exceed 24:00 by a leap second (see C45).

Missing for the full property: integers of a binary format (`C95_binary_violated`), and times above 24:00
(`C45_time_violated`). -/
theorem C95_text_partial (p : Profile) (u : TokenField) (c : Caches) (s : Bytes) :
    (∀ d, Date.visit p u c (.str s) = .ok d → DateRange d.v ∨ d.v = i32Max ∨ d.v = i32Min) ∧
    (∀ t, Time.visit p u c (.str s) = .ok t → 0 ≤ t.v ∧ t.v ≤ 86401000000) ∧
    (∀ t, Timestamp.visit p u c (.str s) = .ok t → TsRange t.v ∨ t.v = i64Max ∨ t.v = i64Min) := by
  refine ⟨?_, ?_, ?_⟩
  · intro d h
    exact C45_date p u c s .ymd d (De.custom_ok.1 h)
  · intro t h
    exact C45_time_partial p u c s (-1) .ymd t (De.custom_ok.1 h)
  · intro t h
    rcases C45_timestamp_partial p u c s (-1) .ymd t (De.custom_ok.1 h) with h | h | h | ⟨-, h, -⟩
    · exact .inl h
    · exact .inr (.inl h)
    · exact .inr (.inr h)
    · omega

example : Date.visit .debug .string Caches.new (.str b!"infinity") = .ok ⟨2147483647⟩ := by decide +kernel

/-- **C95, other kinds.** From anything but text, a date is deserialised from a 32-bit integer only, and a
time or timestamp from a 32-bit or 64-bit integer only; the value is the integer shown, so that no two
integers are confused. Floating-point numbers, sequences and maps are refused, and nothing panics. -/
theorem C95_kinds (p : Profile) (u : TokenField) (c : Caches) (v : DeVal) (hv : ∀ s, v ≠ .str s)
    (hi : ∀ n, (v = .i32 n → In32 n) ∧ (v = .i64 n → In64 n)) :
    (∀ d, Date.visit p u c v = .ok d ↔ v = .i32 d.v) ∧
    (∀ t, Time.visit p u c v = .ok t ↔ ShowsInt v t.v) ∧
    (∀ t, Timestamp.visit p u c v = .ok t ↔ ShowsInt v t.v) ∧
    Date.visit p u c v ≠ .panic ∧ Time.visit p u c v ≠ .panic ∧ Timestamp.visit p u c v ≠ .panic ∧
    Interval.visit p u c v ≠ .panic := by
  cases v with
  | str s => exact absurd rfl (hv s)
  | i32 n =>
    have h := (hi n).1 rfl
    refine ⟨?_, ?_, ?_, nofun, nofun, nofun, nofun⟩
    · rintro ⟨d⟩; simp [Date.visit]
    · rintro ⟨d⟩; simp only [Time.visit, ShowsInt, De.ok.injEq, Time.mk.injEq, DeVal.i32.injEq, reduceCtorEq,
        false_and, or_false]
      exact ⟨fun e => ⟨e, e ▸ h⟩, fun e => e.1⟩
    · rintro ⟨d⟩; simp only [Timestamp.visit, ShowsInt, De.ok.injEq, Timestamp.mk.injEq, DeVal.i32.injEq,
        reduceCtorEq, false_and, or_false]
      exact ⟨fun e => ⟨e, e ▸ h⟩, fun e => e.1⟩
  | i64 n =>
    have h := (hi n).2 rfl
    refine ⟨?_, ?_, ?_, nofun, nofun, nofun, nofun⟩
    · rintro ⟨d⟩; simp [Date.visit]
    · rintro ⟨d⟩; simp only [Time.visit, ShowsInt, De.ok.injEq, Time.mk.injEq, DeVal.i64.injEq, reduceCtorEq,
        false_and, false_or]
      exact ⟨fun e => ⟨e, e ▸ h⟩, fun e => e.1⟩
    · rintro ⟨d⟩; simp only [Timestamp.visit, ShowsInt, De.ok.injEq, Timestamp.mk.injEq, DeVal.i64.injEq,
        reduceCtorEq, false_and, false_or]
      exact ⟨fun e => ⟨e, e ▸ h⟩, fun e => e.1⟩
  | seq l =>
    refine ⟨?_, ?_, ?_, nofun, nofun, nofun, visitSeq_no_panic l⟩ <;> intro d <;>
      simp [Date.visit, Time.visit, Timestamp.visit, ShowsInt]
  | map l =>
    refine ⟨?_, ?_, ?_, nofun, nofun, nofun, visitMap_no_panic l⟩ <;> intro d <;>
      simp [Date.visit, Time.visit, Timestamp.visit, ShowsInt]
  | other =>
    refine ⟨?_, ?_, ?_, nofun, nofun, nofun, nofun⟩ <;> intro d <;>
      simp [Date.visit, Time.visit, Timestamp.visit, ShowsInt]

example : Time.visit .debug .string Caches.new (.i32 5) = .ok ⟨5⟩ ∧
    Date.visit .debug .string Caches.new (.i64 5) = .err .invalidType := ⟨rfl, rfl⟩

/-- **C95 is violated in binary formats.** Every integer is accepted, also one outside the range of the type:
a date whose text makes a debug build panic, a date some 5.8 million years before Christ whose text names a
year after Christ, a negative time whose text is that of a positive one, and a timestamp past the end of the
range. -/
theorem C95_binary_violated (p : Profile) (u : TokenField) (c : Caches) :
    (Date.visit p u c (.i32 2147483646) = .ok ⟨2147483646⟩ ∧ ¬ DateRange 2147483646 ∧
      Date.serText .debug (List.replicate 128 0) ⟨2147483646⟩ = .panic) ∧
    (Date.visit p u c (.i32 (-2147483647)) = .ok ⟨-2147483647⟩ ∧ ¬ DateRange (-2147483647) ∧
      Date.format p (List.replicate 128 0) ⟨-2147483647⟩ .iso .ymd = .ok b!"5881610-07-13") ∧
    (Time.visit p u c (.i64 (-1)) = .ok ⟨-1⟩ ∧
      Time.format p (List.replicate 128 0) ⟨-1⟩ .iso = Time.format p (List.replicate 128 0) ⟨1⟩ .iso) ∧
    (Timestamp.visit p u c (.i64 9223372036854775806) = .ok ⟨9223372036854775806⟩ ∧
      ¬ TsRange 9223372036854775806) := by
  refine ⟨⟨rfl, by decide, ?_⟩, ⟨rfl, by decide, ?_⟩, ⟨rfl, ?_⟩, rfl, by decide⟩
  · have h : Date.format .debug (List.replicate 128 0) ⟨2147483646⟩ .iso .ymd = .panic := by decide +kernel
    rw [Date.serText, h]; rfl
  · cases p <;> decide +kernel
  · cases p <;> decide +kernel

end Props
