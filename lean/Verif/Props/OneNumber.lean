import Verif.Spec.OneNumber
import Verif.Lemmas.OneNumber
import Verif.Props.Shuffle

/-!
# Property C112: one number does not make a date

`c` is the state of the thread's keyword caches, `u` the uninitialised type of a lone sign.
-/

namespace Pg
open Spec

theorem oneNumber_decode {p : Profile} {order : DateOrder} {u : TokenField} {s : Bytes} (h : SingleNumber s) {fs : List Field} {d : Dec}
    (h1 : scan u s = .ok fs) (h2 : decodeDateTime p plainLook order fs ({}, ()) = (.ok (), (d, ()))) : d.dType ≠ .date := by
  obtain ⟨l1, w, l2, hw, nw, dw, lw, hl⟩ := h
  have ne := words_ne s
  rw [hw] at ne
  have letters : ∀ x ∈ l1 ++ l2, Letters x ∧ x ≠ [] := by
    intro x hx
    refine ⟨fun b hb => (isAlpha_iff b).2 ((hl x hx).1 b hb), ne x ?_⟩
    simp only [List.mem_append, List.mem_cons] at hx ⊢
    tauto
  have one : ∀ x ∈ l1 ++ w :: l2, OneField u x (fieldOf x) := by
    intro x hx
    by_cases e : x = w
    · rw [e]; exact (digits_oneField dw nw).2
    · have hx' : x ∈ l1 ++ l2 := by
        simp only [List.mem_append, List.mem_cons] at hx ⊢
        tauto
      exact (letters_oneField (letters x hx').1 (letters x hx').2).2
  have loop : scanLoop u (s.length + 1) s 128 0 = .ok fs := by
    unfold scan at h1
    split at h1
    · cases h1
    · exact h1
  have plain : ∀ x ∈ l1 ++ l2, PlainWord (fieldOf x) := fun x hx => plainWord_of (letters x hx).1 (letters x hx).2 (hl x hx).2
  rcases (scanLoop_fields (l1 ++ w :: l2) s _ _ _ hw one (Nat.lt_succ_self _) fs).1 loop with ⟨rfl, -, -⟩ | ⟨rfl, -⟩
  · rw [List.map_append, List.map_cons, (digits_oneField (u := .number) dw nw).1] at h2
    refine decode_one (fun f hf => ?_) (fun f hf => ?_) dw lw h2
    · obtain ⟨x, hx, rfl⟩ := List.mem_map.1 hf
      exact plain x (List.mem_append_left _ hx)
    · obtain ⟨x, hx, rfl⟩ := List.mem_map.1 hf
      exact plain x (List.mem_append_right _ hx)
  · exact (no_words h2).elim

end Pg

namespace Props
open Pg Spec

/-- **C112, one number.** A text with one number of at most five digits and otherwise only words, whatever these words are and
wherever the number stands, is read as infinity, as minus infinity, or not at all. -/
theorem C112_partial (p : Profile) (u : TokenField) (c : Caches) (hc : c.Ok) (typmod : Int) (order : DateOrder) (s : Bytes)
    (h : SingleNumber s) :
    (∀ v, Date.tryFromStr p u c s order = .ok v → v = ⟨i32Max⟩ ∨ v = ⟨i32Min⟩) ∧
    ∀ v, Timestamp.tryFromStr p u c s typmod order = .ok v → v = ⟨i64Max⟩ ∨ v = ⟨i64Min⟩ := by
  refine ⟨fun v hv => ?_, fun v hv => ?_⟩
  · obtain ⟨l, d, e1, e2, e3⟩ := date_decoded hc hv
    have hk := oneNumber_decode h e1 e2
    rcases date_kind e3 with ⟨k, -⟩ | ⟨-, k⟩ | ⟨-, k⟩
    · exact absurd k hk
    · left; cases v; cases k; rfl
    · right; cases v; cases k; rfl
  · obtain ⟨l, d, t, e1, e2, e3, e4⟩ := timestamp_decoded hc hv
    have hk := oneNumber_decode h e1 e2
    rcases timestamp_kind e3 e4 with ⟨k, -⟩ | ⟨-, k⟩ | ⟨-, k⟩
    · exact absurd k hk
    · left; cases v; cases k; rfl
    · right; cases v; cases k; rfl

/-- **C112, violated.** With a clock time a text needs no year, no month and no day: what is missing is taken as 0. -/
theorem C112_violated (p : Profile) (u : TokenField) (c : Caches) (hc : c.Ok) (order : DateOrder) :
    Timestamp.tryFromStr p u c b!"10:00:00" (-1) order = .ok ⟨-63116632800000000⟩ ∧
    Timestamp.tryFromStr p u c b!"Jan 10:00:00" (-1) order = .ok ⟨-63113954400000000⟩ ∧
    Timestamp.tryFromStr p u c b!"Mon 2024 10:00:00" (-1) order = .ok ⟨754653600000000⟩ := by
  have s1 : scan u b!"10:00:00" = .ok [(.time, b!"10:00:00")] := by cases u <;> decide +kernel
  have s2 : scan u b!"Jan 10:00:00" = .ok [(.string, b!"jan"), (.time, b!"10:00:00")] := by cases u <;> decide +kernel
  have s3 : scan u b!"Mon 2024 10:00:00" = .ok [(.string, b!"mon"), (.number, b!"2024"), (.time, b!"10:00:00")] := by
    cases u <;> decide +kernel
  exact ⟨timestamp_eval p u hc (-1) order s1 (by cases p <;> cases order <;> decide +kernel),
    timestamp_eval p u hc (-1) order s2 (by cases p <;> cases order <;> decide +kernel),
    timestamp_eval p u hc (-1) order s3 (by cases p <;> cases order <;> decide +kernel)⟩

/-! ## Cases -/

/-- A month, a year and a weekday, no day. -/
example : SingleNumber b!"Mon Sept 2024 ad" := by
  refine ⟨[b!"Mon", b!"Sept"], b!"2024", [b!"ad"], by decide +kernel, by decide, by unfold Digits; decide, by decide, ?_⟩
  unfold Letter Known SameButCase
  decide +kernel

/-- A labelled day, no month and no year. -/
example : SingleNumber b!"d 12 pm" := by
  refine ⟨[b!"d"], b!"12", [b!"pm"], by decide +kernel, by decide, by unfold Digits; decide, by decide, ?_⟩
  unfold Letter Known SameButCase
  decide +kernel

/-- A number and the word for infinity, which is accepted. -/
example : SingleNumber b!"Mon 12 infinity" ∧
    ∀ p, Date.tryFromStr p .number Caches.new b!"Mon 12 infinity" .ymd = .ok ⟨i32Max⟩ := by
  refine ⟨⟨[b!"Mon"], b!"12", [b!"infinity"], by decide +kernel, by decide, by unfold Digits; decide, by decide, ?_⟩,
    fun p => by cases p <;> decide +kernel⟩
  unfold Letter Known SameButCase
  decide +kernel

end Props
