import Verif.Lemmas.StampBack

/-! # Property C40, input: the words for the infinities -/

namespace Spec

/-- The small letter for a letter. -/
def small (b : Nat) : Nat := if 65 ≤ b ∧ b ≤ 90 then b + 32 else b

end Spec

namespace Pg
open Spec

theorem lower_small (w : Bytes) : lower w = w.map small := by
  unfold lower
  congr 1
  funext b
  unfold lowerB small isUpper
  by_cases h : 65 ≤ b ∧ b ≤ 90
  · rw [if_pos h, if_pos (by simpa using h)]
  · rw [if_neg h, if_neg (by simpa using h)]

theorem letters_of_lower {w t : Bytes} (h : lower w = t) (ht : ∀ b ∈ t, 97 ≤ b ∧ b ≤ 122) : Letters w := by
  intro b hb
  have : lowerB b ∈ t := by rw [← h]; exact List.mem_map_of_mem hb
  have := ht _ this
  rw [isAlpha_iff]
  unfold lowerB at this
  split at this
  · rename_i hu
    unfold isUpper at hu
    simp at hu
    omega
  · omega

theorem scan_infinity (u : TokenField) {w : Bytes} (h : lower w = b!"infinity") :
    scan u w = .ok [(.string, b!"infinity")] ∧ scan u (45 :: w) = .ok [(.special, b!"-infinity")] := by
  have hl := letters_of_lower h (by decide)
  have hlen : w.length = 8 := by
    have := congrArg List.length h
    simpa [lower] using this
  have hne : w ≠ [] := by rintro rfl; cases hlen
  constructor
  · have := Scans.wordSpace (u := u) hl hne (rest := []) (Or.inl rfl) (Scans.nil u)
    rw [List.append_nil, h] at this
    exact scan_of this hne (by omega) (by decide)
  · have : Scans u (45 :: w) [(.special, 45 :: lower w)] := by
      refine Scans.field (by decide) (rest := []) ?_ (by simp [lower]) (by simp) (Scans.nil u)
      cases w with
      | nil => exact absurd rfl hne
      | cons c t =>
        have hc := hl c (by simp)
        have hns : isSpace c = false := startB_noSpace (startB_alpha hc)
        have hnd : isDigit c = false := by
          rw [isAlpha_iff] at hc
          rw [Bool.eq_false_iff, ne_eq, isDigit_iff]; omega
        have htw : (c :: t).takeWhile isAlpha = c :: t := by
          have := takeWhile_span hl (Stops.nil isAlpha)
          rwa [List.append_nil] at this
        have hdw : (c :: t).dropWhile isAlpha = [] := by
          have := dropWhile_span hl (Stops.nil isAlpha)
          rwa [List.append_nil] at this
        rw [scanField, if_neg (by decide), if_neg (by decide), if_neg (by decide), scanSign]
        simp only [dropWhile_stop (Stops.cons (r := t) hns)]
        rw [if_neg (by simp [hnd]), if_pos hc, htw, hdw]
    rw [h] at this
    exact scan_of this (by simp) (by simp; omega) (by decide)

end Pg

namespace Props
open Pg Spec

/-- **C40, input.** The words `infinity` and `-infinity`, in any mixture of capital and small letters, are
read as the infinite dates and timestamps, with any date order and (for timestamps) any precision. -/
theorem C40_input (p : Profile) (u : TokenField) (cs : Caches) (hcs : cs.Ok) (order : DateOrder) (typmod : Int)
    (w : Bytes) (hw : w.map small = b!"infinity") :
    Date.tryFromStr p u cs w order = .ok ⟨i32Max⟩ ∧ Date.tryFromStr p u cs (45 :: w) order = .ok ⟨i32Min⟩ ∧
    Timestamp.tryFromStr p u cs w typmod order = .ok ⟨i64Max⟩ ∧
    Timestamp.tryFromStr p u cs (45 :: w) typmod order = .ok ⟨i64Min⟩ := by
  rw [← lower_small] at hw
  obtain ⟨h1, h2⟩ := scan_infinity u hw
  have r1 : decodeDateTime p plainLook order [(.string, b!"infinity")] ({}, ()) =
      (.ok (), ({ dType := .late, tMask := 1, fMask := 1 }, ())) := by
    cases p <;> cases order <;> decide +kernel
  have r2 : decodeDateTime p plainLook order [(.special, b!"-infinity")] ({}, ()) =
      (.ok (), ({ dType := .early, tMask := 1, fMask := 1 }, ())) := by
    cases p <;> cases order <;> decide +kernel
  rw [date_run p u hcs order h1 r1, date_run p u hcs order h2 r2, timestamp_run p u hcs typmod order h1 r1,
    timestamp_run p u hcs typmod order h2 r2]
  refine ⟨rfl, rfl, ?_, ?_⟩
  · show (⟨i64Max⟩ : Timestamp).adjustByTypmod p typmod = _
    unfold Timestamp.adjustByTypmod
    rw [show (⟨i64Max⟩ : Timestamp).isInfinite = true by decide]
    rfl
  · show (⟨i64Min⟩ : Timestamp).adjustByTypmod p typmod = _
    unfold Timestamp.adjustByTypmod
    rw [show (⟨i64Min⟩ : Timestamp).isInfinite = true by decide]
    rfl

example : (b!"InFiNiTy").map small = b!"infinity" ∧
    Timestamp.tryFromStr .debug .date Caches.new b!"-INFINITY" 3 .ymd = .ok ⟨i64Min⟩ := by decide +kernel

end Props
