import Verif.Lemmas.Number
import Verif.Lemmas.Scan
import Verif.Lemmas.Lists

/-! # Tokenizing texts built from known parts -/

namespace Pg
open Spec

/-- The tokenizer splits `s` into the fields `l`, whatever came before, as long as the work area has room
for `s` and there are not too many fields. -/
def Scans (u : TokenField) (s : Bytes) (l : List Field) : Prop :=
  ∀ fuel cap nf, s.length < fuel → s.length ≤ cap → nf + l.length ≤ 25 → scanLoop u fuel s cap nf = .ok l

theorem Scans.nil (u : TokenField) : Scans u [] [] := by
  intro fuel cap nf h _ _
  obtain ⟨n, rfl⟩ : ∃ n, fuel = n + 1 := ⟨fuel - 1, by simp at h; omega⟩
  rfl

theorem Scans.space {u : TokenField} {s : Bytes} {l : List Field} (h : Scans u s l) :
    Scans u (32 :: s) l := by
  intro fuel cap nf hf hc hn
  simp only [List.length_cons] at hf hc
  obtain ⟨n, rfl⟩ : ∃ n, fuel = n + 1 := ⟨fuel - 1, by omega⟩
  rw [← h (n + 1) cap nf (by omega) (by omega) hn]
  rfl

/-- Start of a field. -/
def startB (c : Nat) : Bool := isDigit c || c = 46 || isAlpha c || c = 43 || c = 45

theorem startB_noSpace {c : Nat} (h : startB c = true) : isSpace c = false := by
  simp only [startB, Bool.or_eq_true, isDigit_iff, isAlpha_iff, decide_eq_true_eq] at h
  rw [isSpace_false]; omega

theorem Scans.field {u : TokenField} {c : Nat} {s rest : Bytes} {f : Field} {l : List Field}
    (hc : startB c = true) (hf : scanField u c (c :: s) = .ok (f, rest))
    (hlen : f.2.length + rest.length ≤ s.length + 1) (hpos : f.2 ≠ []) (h : Scans u rest l) :
    Scans u (c :: s) (f :: l) := by
  intro fuel cap nf hfu hca hn
  simp only [List.length_cons] at hfu hca hn
  obtain ⟨n, rfl⟩ : ∃ n, fuel = n + 1 := ⟨fuel - 1, by omega⟩
  have hp := List.length_pos_iff.2 hpos
  rw [scanLoop, dropWhile_stop (Stops.cons (startB_noSpace hc))]
  simp only
  unfold startB at hc
  rw [if_neg (by omega), if_pos hc, if_neg (by omega), hf, Res.bind_ok]
  simp only
  rw [if_neg (by omega), h n (cap - f.2.length) (nf + 1) (by omega) (by omega) (by omega)]
  rfl

theorem scan_of {u : TokenField} {s : Bytes} {l : List Field} (h : Scans u s l) (hne : s ≠ [])
    (hl : s.length ≤ 128) (hn : l.length ≤ 25) : scan u s = .ok l := by
  unfold scan
  rw [if_neg (by simpa using hne)]
  exact h _ _ _ (by omega) hl (by omega)

theorem startB_digit {c : Nat} (h : isDigit c = true) : startB c = true := by
  unfold startB; rw [h]; rfl
theorem startB_alpha {c : Nat} (h : isAlpha c = true) : startB c = true := by
  unfold startB; rw [h]; simp

/-- A field that starts with a digit. -/
theorem Scans.digit {u : TokenField} {ds s rest : Bytes} {f : Field} {l : List Field} (hd : Digits ds)
    (hne : ds ≠ []) (hf : scanDigit (ds ++ s) = (f, rest)) (hlen : f.2.length + rest.length ≤ (ds ++ s).length)
    (hpos : f.2 ≠ []) (h : Scans u rest l) : Scans u (ds ++ s) (f :: l) := by
  obtain ⟨c, t, e, hc, -⟩ := digit_head (r := s) hd hne
  rw [e] at hf hlen ⊢
  refine Scans.field (startB_digit hc) ?_ (by simpa using hlen) hpos h
  rw [scanField, if_pos hc, hf]

/-- A clock time. -/
theorem Scans.time {u : TokenField} {hh t rest : Bytes} {l : List Field} (hd : Digits hh) (hne : hh ≠ [])
    (ht : ∀ b ∈ t, isTimeB b = true) (hr : Stops isTimeB rest) (h : Scans u rest l) :
    Scans u (hh ++ 58 :: (t ++ rest)) ((.time, hh ++ 58 :: t) :: l) := by
  have ht' : ∀ b ∈ 58 :: t, isTimeB b = true := by
    intro b hb
    rcases List.mem_cons.1 hb with rfl | hb
    · rfl
    · exact ht b hb
  refine Scans.digit hd hne ?_ (by simp; omega) (by simp) h
  rw [scanDigit, takeWhile_span (digits_isDigit hd) (Stops.cons rfl),
    dropWhile_span (digits_isDigit hd) (Stops.cons rfl)]
  simp only [if_true]
  rw [← List.cons_append, takeWhile_span ht' hr, dropWhile_span ht' hr]

/-- The separators of a numeric date. -/
def isSep (d : Nat) : Prop := d = 45 ∨ d = 47 ∨ d = 46

theorem isSep.notDigit {d : Nat} (h : isSep d) : isDigit d = false := by
  rcases h with rfl | rfl | rfl <;> rfl
theorem isSep.notAlnum {d : Nat} (h : isSep d) : isAlnum d = false := by
  rcases h with rfl | rfl | rfl <;> rfl

/-- Three numbers with the same separator. -/
theorem Scans.date {u : TokenField} {a b c rest : Bytes} {d : Nat} {l : List Field} (hd : isSep d)
    (ha : Digits a) (na : a ≠ []) (hb : Digits b) (nb : b ≠ []) (hc : Digits c)
    (hr : Stops (fun x => x = d || isDigit x) rest) (h : Scans u rest l) :
    Scans u (a ++ d :: (b ++ d :: (c ++ rest))) ((.date, a ++ d :: (b ++ d :: c)) :: l) := by
  refine Scans.digit ha na ?_ (by simp; omega) (by simp) h
  rw [scanDigit, takeWhile_span (digits_isDigit ha) (Stops.cons hd.notDigit),
    dropWhile_span (digits_isDigit ha) (Stops.cons hd.notDigit)]
  simp only
  obtain ⟨x, t, e, hx, -⟩ := digit_head (r := d :: (c ++ rest)) hb nb
  have hsd : scanDelim d (b ++ d :: (c ++ rest)) = (.date, d :: (b ++ d :: c), rest) := by
    rw [e, scanDelim, if_pos hx, ← e, dropWhile_span (digits_isDigit hb) (Stops.cons hd.notDigit),
      takeWhile_span (digits_isDigit hb) (Stops.cons hd.notDigit)]
    simp only [List.head?_cons, if_true]
    have hall : ∀ y ∈ d :: c, (decide (y = d) || isDigit y) = true := by
      intro y hy
      rcases List.mem_cons.1 hy with rfl | hy
      · simp
      · rw [digits_isDigit hc y hy]; simp
    have e5 : d :: (c ++ rest) = (d :: c) ++ rest := rfl
    rw [e5, takeWhile_span hall hr, dropWhile_span hall hr]
  rw [hsd]
  rcases hd with rfl | rfl | rfl <;> simp

/-- A plain number. -/
theorem Scans.number {u : TokenField} {a rest : Bytes} {l : List Field} (ha : Digits a) (na : a ≠ [])
    (hr : Stops (fun x => isDigit x || x = 58 || x = 45 || x = 47 || x = 46) rest) (h : Scans u rest l) :
    Scans u (a ++ rest) ((.number, a) :: l) := by
  have hr1 : Stops isDigit rest := by
    intro x hx
    have := hr x hx
    simp only [Bool.or_eq_false_iff] at this
    exact this.1.1.1.1
  refine Scans.digit ha na ?_ (by simp) (by simpa using na) h
  rw [scanDigit, takeWhile_span (digits_isDigit ha) hr1, dropWhile_span (digits_isDigit ha) hr1]
  cases rest with
  | nil => rfl
  | cons x r =>
    have := hr x (by simp)
    simp only [Bool.or_eq_false_iff, decide_eq_false_iff_not] at this
    simp only
    rw [if_neg this.1.1.1.2, if_neg (by simp; tauto)]

/-- Letters only. -/
def Letters (w : Bytes) : Prop := ∀ b ∈ w, isAlpha b = true

/-- A word that is not continued as a date. -/
theorem Scans.word {u : TokenField} {w rest : Bytes} {l : List Field} (hw : Letters w) (nw : w ≠ [])
    (hr : Stops isAlpha rest) (hd : alphaIsDate (lower w) rest = .ok false) (h : Scans u rest l) :
    Scans u (w ++ rest) ((.string, lower w) :: l) := by
  cases w with
  | nil => exact absurd rfl nw
  | cons c t =>
    have hc := hw c (by simp)
    have hnd : isDigit c = false := by
      rw [isAlpha_iff] at hc
      rw [Bool.eq_false_iff, ne_eq, isDigit_iff]; omega
    have hn46 : c ≠ 46 := by rw [isAlpha_iff] at hc; omega
    rw [List.cons_append]
    refine Scans.field (startB_alpha hc) ?_ (by simp [lower]; omega) (by simp [lower]) h
    rw [scanField, if_neg (by simp [hnd]), if_neg hn46, if_pos hc, scanAlpha, ← List.cons_append,
      takeWhile_span hw hr, dropWhile_span hw hr, hd]
    rfl

/-- A word at the end of the text or before a space. -/
theorem Scans.wordSpace {u : TokenField} {w rest : Bytes} {l : List Field} (hw : Letters w) (nw : w ≠ [])
    (hr : rest = [] ∨ ∃ r, rest = 32 :: r) (h : Scans u rest l) :
    Scans u (w ++ rest) ((.string, lower w) :: l) := by
  rcases hr with rfl | ⟨r, rfl⟩
  · exact Scans.word hw nw (Stops.nil _) rfl h
  · exact Scans.word hw nw (Stops.cons rfl) rfl h

/-- A sign and a number. -/
theorem Scans.signed {u : TokenField} {sg : Nat} {a rest : Bytes} {l : List Field}
    (hs : sg = 43 ∨ sg = 45) (h0 : ∃ x t, a = x :: t ∧ isDigit x = true)
    (ha : ∀ b ∈ a, isSignedB b = true) (hr : Stops isSignedB rest) (h : Scans u rest l) :
    Scans u (sg :: (a ++ rest)) ((.tz, sg :: a) :: l) := by
  obtain ⟨x, t, e, hx⟩ := h0
  have hsp : isSpace x = false := digit_noSpace x hx
  refine Scans.field (by rcases hs with rfl | rfl <;> rfl) ?_ (by simp; omega) (by simp) h
  have e1 : isDigit sg = false ∧ sg ≠ 46 ∧ isAlpha sg = false := by
    rcases hs with rfl | rfl <;> decide
  rw [scanField, if_neg (by simp [e1.1]), if_neg e1.2.1, if_neg (by simp [e1.2.2]), scanSign]
  have e2 : (a ++ rest).dropWhile isSpace = a ++ rest := by
    rw [e]; exact dropWhile_stop (Stops.cons hsp)
  simp only [e2]
  have e3 : a ++ rest = x :: (t ++ rest) := by rw [e]; rfl
  split
  · rename_i h0; rw [e3] at h0; cases h0
  · rename_i y t' h0
    rw [e3] at h0; cases h0
    rw [if_pos hx, takeWhile_span ha hr, dropWhile_span ha hr]

end Pg
