import Verif.Lemmas.Meridiem
import Verif.Props.ClockInput

/-!
# Property C58: the twelve-hour clock on input

`c` is the state of the thread's keyword caches, `u` the uninitialised type of a lone sign.
-/

namespace Props
open Pg Spec

/-- **C58, times of day.** `hh:mm:ss[.f]`, with or without a space before `AM` or `PM` in any letter case (numbers
of up to ten digits, a fraction of up to seven), is read as that time of the twelve-hour clock: 12 AM is hour 0,
12 PM hour 12; hours above 12, minutes above 59 and seconds above 60 are errors. -/
theorem C58_time (p : Profile) (u : TokenField) (c : Caches) (hc : c.Ok) (order : DateOrder) (gap pm : Bool) (w : Bytes)
    (hw : MeridiemWord pm w) (hh mm ss : Bytes) (f : Option Bytes) (h1 : Digits hh) (n1 : hh ≠ []) (h2 : Digits mm)
    (n2 : mm ≠ []) (h3 : Digits ss) (n3 : ss ≠ []) (hf : Digits (f.getD []))
    (hs : hh.length ≤ 10 ∧ mm.length ≤ 10 ∧ ss.length ≤ 10 ∧ (f.getD []).length ≤ 7) (text : Bytes)
    (ht : text = hmsText hh mm ss f ++ (if gap then [32] else []) ++ w) :
    ∃ us, NearestMicros (f.getD []) us ∧
      match hour24 pm (value hh) with
      | none => (Time.tryFromStr p u c text (-1) order).IsErr
      | some k =>
        if value mm ≤ 59 ∧ value ss ≤ 60 then
          Time.tryFromStr p u c text (-1) order = .ok ⟨clockValue k (value mm) (value ss) us⟩
        else (Time.tryFromStr p u c text (-1) order).IsErr := by
  have e : f.getD [] = fracDigits f := by cases f <;> rfl
  rw [e] at hf hs ⊢
  exact ⟨fracMicros f, fracMicros_nearest hf hs.2.2.2,
    time_mer p u hc order gap pm hw h1 n1 h2 n2 h3 n3 hf hs (by rw [ht, hmsText_eq, gapBytes, List.append_assoc])⟩

example : MeridiemWord true b!"Pm" ∧ MeridiemWord false b!"aM" ∧ ¬ MeridiemWord true b!"am" := by
  unfold MeridiemWord SameButCase; decide
example : Time.tryFromStr .debug .date Caches.new b!"12:30:00.25Am" (-1) .ymd = .ok ⟨1800250000⟩ ∧
    clockValue 0 30 0 250000 = 1800250000 ∧ hour24 false 12 = some 0 := by decide +kernel
example : Time.tryFromStr .debug .date Caches.new b!"11:59:60 PM" (-1) .ymd = .ok ⟨86400000000⟩ ∧
    hour24 true 11 = some 23 := by decide +kernel
example : (Time.tryFromStr .debug .date Caches.new b!"13:00:00 PM" (-1) .ymd).IsErr :=
  ⟨.overflow, by decide +kernel⟩

/-- **C58, timestamps.** The same after a numeric date (as in C56) and a space or `T`, and optionally before
` BC`. -/
theorem C58_timestamp (p : Profile) (u : TokenField) (cs : Caches) (hcs : cs.Ok) (order : DateOrder)
    (bc : Bool) (x : Nat) (hx : x = 45 ∨ x = 47 ∨ x = 46) (a b c : Bytes) (ha : Digits a) (hb : Digits b)
    (hc : Digits c) (la : 1 ≤ a.length ∧ a.length ≤ 10) (lb : 1 ≤ b.length ∧ b.length ≤ 10)
    (lc : 1 ≤ c.length ∧ c.length ≤ 10) (h3 : b.length ≠ 3) (y : Nat) (hy : y = 32 ∨ y = 84) (gap pm : Bool) (w : Bytes)
    (hw : MeridiemWord pm w) (hh mm ss : Bytes) (f : Option Bytes) (h1 : Digits hh) (n1 : hh ≠ []) (h2 : Digits mm)
    (n2 : mm ≠ []) (h4 : Digits ss) (n4 : ss ≠ []) (hf : Digits (f.getD []))
    (hs : hh.length ≤ 10 ∧ mm.length ≤ 10 ∧ ss.length ≤ 10 ∧ (f.getD []).length ≤ 7) (text : Bytes)
    (ht : text = numericDate x a b c ++ [y] ++ hmsText hh mm ss f ++ (if gap then [32] else []) ++ w ++ bcMark bc) :
    ∃ us, NearestMicros (f.getD []) us ∧
      match inputDay order a b c bc, hour24 pm (value hh) with
      | some day, some k =>
        if (value mm ≤ 59 ∧ value ss ≤ 60) ∧ TsRange (instant day ⟨k, value mm, value ss, us⟩) then
          Timestamp.tryFromStr p u cs text (-1) order = .ok ⟨instant day ⟨k, value mm, value ss, us⟩⟩
        else (Timestamp.tryFromStr p u cs text (-1) order).IsErr
      | _, _ => (Timestamp.tryFromStr p u cs text (-1) order).IsErr := by
  have e : f.getD [] = fracDigits f := by cases f <;> rfl
  rw [e] at hf hs ⊢
  obtain ⟨sep, hsep⟩ : ∃ sep : DateSep, sep.bytes = [y] := by
    rcases hy with rfl | rfl
    · exact ⟨.space, rfl⟩
    · exact ⟨.letterT, rfl⟩
  exact ⟨fracMicros f, fracMicros_nearest hf hs.2.2.2,
    timestamp_mer p u hcs order bc sep gap pm hw hx ha (by rintro rfl; simp at la) hb (by rintro rfl; simp at lb)
      hc (by rintro rfl; simp at lc) la.2 lb.2 lc.2 (fun _ => h3) h1 n1 h2 n2 h4 n4 hf hs
      (by rw [ht, hsep, hmsText_eq, gapBytes])⟩

example : Timestamp.tryFromStr .debug .date Caches.new b!"2024-03-01 12:00:01 am" (-1) .ymd =
    .ok ⟨762566401000000⟩ ∧ instant ⟨2024, 3, 1⟩ ⟨0, 0, 1, 0⟩ = 762566401000000 := by decide +kernel
example : Timestamp.tryFromStr .debug .date Caches.new b!"1/2/0044 3:04:05PM BC" (-1) .mdy =
    .ok ⟨instant ⟨-43, 1, 2⟩ ⟨15, 4, 5, 0⟩⟩ := by decide +kernel
example : (Timestamp.tryFromStr .debug .date Caches.new b!"2024-03-01 13:00:00 am" (-1) .ymd).IsErr :=
  ⟨.overflow, by decide +kernel⟩

end Props
