import Verif.Lemmas.Scan
import Verif.Lemmas.Lists
import Verif.Lemmas.CacheSim

/-! # C43: splitting the text into fields -/

namespace Props
open Pg

/-- C43 except lower-casing. For every text of at most 128 bytes, splitting it does not panic; it gives
an error or at most 25 nonempty fields. Up to letter case the bytes of the fields, in order, are a
subsequence of the bytes of the text that are not white space, and no letter or digit is lost. A field
with an upper case letter has type Date. Missing: that the fields are entirely lower-cased, which is
false (`C43_not_lower_cased`). -/
theorem C43_fields_partial (u : TokenField) (s : Bytes) (h : s.length ≤ 128) :
    scan u s ≠ .panic ∧ ∀ l, scan u s = .ok l →
      l.length ≤ 25 ∧ (∀ f ∈ l, f.2 ≠ []) ∧
      List.Sublist ((l.flatMap (·.2)).map lowerB) ((s.filter fun b => !isSpace b).map lowerB) ∧
      ((l.flatMap (·.2)).map lowerB).filter isAlnum = (s.map lowerB).filter isAlnum ∧
      (∀ f ∈ l, (∃ b ∈ f.2, isUpper b = true) → f.1 = .date) := by
  rw [scan]
  by_cases he : s.isEmpty = true
  · rw [if_pos he]
    exact ⟨(fun hh => by cases hh), (fun l hl => by cases hl)⟩
  · rw [if_neg he]
    rcases scanLoop_spec u (s.length + 1) s 128 0 (by omega) h with e | ⟨l', e, hk, hne⟩
    · rw [e]; exact ⟨(fun hh => by cases hh), (fun l hl => by cases hl)⟩
    · refine ⟨by rw [e]; exact (fun hh => by cases hh), fun l hl => ?_⟩
      have h25 := scanLoop_length hl
      have hup := scanLoop_upper hl
      rw [e] at hl
      cases hl
      refine ⟨by omega, hne, hk.1, hk.2, fun f hf hb => ?_⟩
      rcases hup f hf with hno | hd
      · obtain ⟨b, hb1, hb2⟩ := hb
        rw [hno b hb1] at hb2; cases hb2
      · exact hd

example : scan .number b!" 4 Jul, 2020 12:30:00.5 PM" =
    .ok [(.number, b!"4"), (.string, b!"jul"), (.number, b!"2020"), (.time, b!"12:30:00.5"),
      (.string, b!"pm")] := by decide +kernel

/-- C43, the lower-casing is incomplete: the part of a word after its first punctuation keeps its
case. -/
theorem C43_not_lower_cased (u : TokenField) :
    scan u b!"May-5-AD" = .ok [(.date, b!"may-5-AD")] := by
  cases u <;> decide +kernel

/-- C43: the bound on the length matters: every text of more than 128 digits panics (the work area is
too short). -/
theorem C43_long_text (u : TokenField) (s : Bytes) (hd : ∀ b ∈ s, isDigit b = true)
    (h : 128 < s.length) : scan u s = .panic := by
  cases s with
  | nil => simp at h
  | cons c r =>
    have hc := hd c (List.mem_cons_self ..)
    have h1 : (c :: r).dropWhile isSpace = c :: r := by
      rw [List.dropWhile_cons_of_neg]; rw [digit_noSpace c hc]; simp
    have h2 : (c :: r).takeWhile isDigit = c :: r := takeWhile_all hd
    have h3 : (c :: r).dropWhile isDigit = [] := dropWhile_all hd
    rw [scan, if_neg (by simp), scanLoop, h1]
    simp only
    rw [if_neg (by omega), if_pos (by rw [hc]; rfl), if_neg (by omega), scanField, if_pos hc,
      scanDigit, h2, h3, Res.bind_ok]
    simp only
    rw [if_pos (by omega)]

example : ∃ s : Bytes, (∀ b ∈ s, isDigit b = true) ∧ 128 < s.length :=
  ⟨List.replicate 129 49, by decide +kernel, by decide +kernel⟩

end Props
