import Verif.Lemmas.DigitRuns
import Verif.Lemmas.Sized

/-! # Texts whose numbers are short -/

namespace Pg
open Spec

/-- No run of digits, or part of one, is longer than `n`. -/
def Short (n : Nat) (w : Bytes) : Prop := ∀ a d c, w = a ++ (d ++ c) → (∀ b ∈ d, isDigit b = true) → d.length ≤ n

theorem Short.infix {n : Nat} {x w y : Bytes} (h : Short n (x ++ (w ++ y))) : Short n w := by
  intro a d c e hd
  exact h (x ++ a) d (c ++ y) (by rw [e]; simp [List.append_assoc]) hd

theorem Short.left {n : Nat} {w y : Bytes} (h : Short n (w ++ y)) : Short n w := Short.infix (x := []) (y := y) h
theorem Short.right {n : Nat} {w y : Bytes} (h : Short n (w ++ y)) : Short n y := Short.infix (x := w) (y := []) (by simpa using h)

theorem Short.take {n : Nat} {w : Bytes} (q : Nat → Bool) (h : Short n w) : Short n (w.takeWhile q) := by
  rw [← List.takeWhile_append_dropWhile (p := q) (l := w)] at h
  exact h.left
theorem Short.drop {n : Nat} {w : Bytes} (q : Nat → Bool) (h : Short n w) : Short n (w.dropWhile q) := by
  rw [← List.takeWhile_append_dropWhile (p := q) (l := w)] at h
  exact h.right

theorem Short.tail {n b : Nat} {w : Bytes} (h : Short n (b :: w)) : Short n w := Short.right (w := [b]) h

theorem short_nil {n : Nat} : Short n [] := by
  intro a d c e _
  have := congrArg List.length e
  simp only [List.length_append, List.length_nil] at this
  omega

theorem Short.cons {n b : Nat} {w : Bytes} (hb : isDigit b = false) (h : Short n w) : Short n (b :: w) := by
  intro a d c e hd
  cases a with
  | nil =>
    cases d with
    | nil => simp
    | cons x d =>
      injection e with e1 e2
      have := hd x (by simp)
      rw [← e1, hb] at this; cases this
  | cons x a =>
    injection e with e1 e2
    exact h a d c e2 hd

theorem Short.case {n : Nat} {w w' : Bytes} (h : Short n w) (e : lower w' = lower w) : Short n w' := by
  intro a d c e' hd
  have e2 : w.map lowerB = (a ++ (d ++ c)).map lowerB := by rw [← e']; exact e.symm
  rw [List.map_append, List.map_append] at e2
  obtain ⟨a', z, rfl, e3, e4⟩ := List.map_eq_append_iff.1 e2
  obtain ⟨d', c', rfl, e5, e6⟩ := List.map_eq_append_iff.1 e4
  have hl : d'.length = d.length := by simpa using congrArg List.length e5
  rw [← hl]
  refine h a' d' c' rfl fun b hb => ?_
  have : lowerB b ∈ d.map lowerB := by rw [← e5]; exact List.mem_map_of_mem hb
  obtain ⟨b', h1, h2⟩ := List.mem_map.1 this
  rw [← digit_free b, ← h2, digit_free b']
  exact hd b' h1

/-- A part of a run of digits is in a whole run. -/
theorem short_text {n : Nat} {s : Bytes} (h : ShortNumbers n s) : Short n s := by
  intro a d c e hd
  by_cases hne : d = []
  · subst hne; simp
  have e1 := List.takeWhile_append_dropWhile (p := isDigit) (l := c)
  have e2 := List.takeWhile_append_dropWhile (p := isDigit) (l := a.reverse)
  have e3 : a = (a.reverse.dropWhile isDigit).reverse ++ (a.reverse.takeWhile isDigit).reverse := by
    rw [← List.reverse_append, e2, List.reverse_reverse]
  have := h ((a.reverse.takeWhile isDigit).reverse ++ (d ++ c.takeWhile isDigit))
    ⟨(a.reverse.dropWhile isDigit).reverse, c.dropWhile isDigit, ?_, by simp [hne], ?_, ?_, ?_⟩
  · simp only [List.length_append] at this; omega
  · have e4 : s = ((a.reverse.dropWhile isDigit).reverse ++ (a.reverse.takeWhile isDigit).reverse) ++ (d ++ (c.takeWhile isDigit ++ c.dropWhile isDigit)) := by
      rw [← e3, e1]; exact e
    rw [e4]; simp only [List.append_assoc]
  · intro b hb
    rw [figure_iff]
    simp only [List.mem_append, List.mem_reverse] at hb
    rcases hb with hb | hb | hb
    · exact all_take _ _ b hb
    · exact hd b hb
    · exact all_take _ _ b hb
  · intro l hl
    rw [figure_iff, Bool.not_eq_true]
    rw [List.getLast?_reverse] at hl
    exact stops_drop _ _ l hl
  · intro l hl
    rw [figure_iff, Bool.not_eq_true]
    exact stops_drop _ _ l hl

theorem field_short {n : Nat} {u : TokenField} {c : Nat} {r : Bytes} {f : Field} {rest : Bytes} (hc : startB c = true)
    (h : scanField u c (c :: r) = .ok (f, rest)) (hs : Short n (c :: r)) : Short n f.2 ∧ Short n rest := by
  refine ⟨?_, ?_⟩
  · unfold scanField at h
    split at h
    · injection h with h
      obtain rfl : (scanDigit (c :: r)).1 = f := congrArg Prod.fst h
      clear h
      unfold scanDigit
      split
      · exact hs.take _
      · rename_i c' r' e
        have e0 := List.takeWhile_append_dropWhile (p := isDigit) (l := c :: r)
        rw [e] at e0
        split
        · rw [← List.takeWhile_append_dropWhile (p := isTimeB) (l := c' :: r'), ← List.append_assoc] at e0
          rw [← e0] at hs
          exact hs.left
        · split
          · rename_i hd
            have hd' : c' = 45 ∨ c' = 47 ∨ c' = 46 := by simpa [or_assoc] using hd
            obtain ⟨used, h1, h2, -⟩ := delim_piece hd' r'
            rw [h1, ← List.append_assoc] at e0
            rw [← e0] at hs
            exact hs.left.case (by dsimp only; rw [lower_append, lower_append, h2])
          · exact hs.take _
    · split at h
      · rename_i hp
        subst hp
        cases h
        exact (hs.tail.take _).cons rfl
      · split at h
        · unfold scanAlpha at h
          obtain ⟨b, hb, h⟩ := Res.bind_eq_ok.1 h
          have e0 := List.takeWhile_append_dropWhile (p := isAlpha) (l := c :: r)
          split at h
          · cases h
            rw [← List.takeWhile_append_dropWhile (p := isWordB) (l := (c :: r).dropWhile isAlpha), ← List.append_assoc] at e0
            rw [← e0] at hs
            refine hs.left.case ?_
            dsimp only
            rw [lower_append, lower_append, lower_idem]
          · cases h
            exact (hs.take _).case (lower_idem _)
        · rename_i h1 h2 h3
          have hcd : isDigit c = false := by simpa using h1
          unfold scanSign at h
          split at h
          · cases h
          · rename_i e
            injection e with e1 e2
            subst e1 e2
            dsimp only at h
            split at h
            · cases h; exact Short.cons hcd short_nil
            · rename_i e
              split at h
              · cases h; exact ((hs.tail.drop _).take _).cons hcd
              · split at h
                · cases h; exact (((hs.tail.drop _).take _).case (lower_idem _)).cons hcd
                · cases h
  · obtain ⟨⟨used, h1, -, -⟩, -⟩ := field_piece hc h
    rw [h1] at hs
    exact hs.right

theorem scanLoop_short {n : Nat} {u : TokenField} :
    ∀ (fuel : Nat) (s : Bytes) (cap nf : Nat) (l : List Field), Short n s → scanLoop u fuel s cap nf = .ok l → ∀ f ∈ l, Short n f.2 := by
  intro fuel
  induction fuel with
  | zero => intro s cap nf l _ h; rw [scanLoop] at h; cases h; simp
  | succ m ih =>
    intro s cap nf l hs h
    rw [scanLoop] at h
    have hs' := hs.drop isSpace
    split at h
    · cases h; simp
    · rename_i c r e
      rw [e] at hs'
      split at h
      · cases h
      · split at h
        · rename_i hst
          split at h
          · cases h
          · obtain ⟨⟨f, rest⟩, h1, h⟩ := Res.bind_eq_ok.1 h
            dsimp only at h
            split at h
            · cases h
            · obtain ⟨l', h2, h⟩ := Res.bind_eq_ok.1 h
              cases h
              obtain ⟨s1, s2⟩ := field_short (by unfold startB; exact hst) h1 hs'
              intro g hg
              rcases List.mem_cons.1 hg with rfl | hg
              · exact s1
              · exact ih _ _ _ _ s2 h2 g hg
        · split at h
          · exact ih _ _ _ _ (hs'.drop _) h
          · cases h

theorem scan_short {n : Nat} {u : TokenField} {s : Bytes} {l : List Field} (hs : Short n s) (h : scan u s = .ok l) : ∀ f ∈ l, Short n f.2 := by
  unfold scan at h
  split at h
  · cases h
  · exact scanLoop_short _ _ _ _ _ hs h

/-! ## Numbers -/

theorem Short.digits {n : Nat} {w : Bytes} (h : Short n w) : (w.takeWhile isDigit).length ≤ n :=
  h [] _ (w.dropWhile isDigit) (List.takeWhile_append_dropWhile (p := isDigit) (l := w)).symm (all_take _ _)

theorem short_sign {n : Nat} {w : Bytes} (h : Short n w) : Short n (extractSign w).2 ∧ ((extractSign w).1 = 1 ∨ (extractSign w).1 = -1) := by
  unfold extractSign
  split
  · exact ⟨h.tail, .inl rfl⟩
  · exact ⟨h.tail, .inr rfl⟩
  · exact ⟨h, .inl rfl⟩

theorem str2i32_six {w r : Bytes} {v : Int} (h : Short 6 w) (e : str2i32 w = .ok (v, r)) : (-999999 ≤ v ∧ v ≤ 999999) ∧ Short 6 r := by
  unfold str2i32 at e
  dsimp only at e
  split at e
  · cases e; exact ⟨by omega, h.drop _⟩
  · obtain ⟨h1, h2⟩ := short_sign (h.drop isSpace)
    split at e
    · cases e
    · split at e
      · cases e
        refine ⟨?_, h1.drop _⟩
        have hd := h1.digits
        rw [foldDigits_eq _ (digits_take _)]
        have hv := value_lt (digits_take (extractSign (w.dropWhile isSpace)).2)
        have hp : 10 ^ ((extractSign (w.dropWhile isSpace)).2.takeWhile isDigit).length ≤ 10 ^ 6 := Nat.pow_le_pow_right (by omega) hd
        rcases h2 with h2 | h2 <;> rw [h2] <;> omega
      · cases e

end Pg
