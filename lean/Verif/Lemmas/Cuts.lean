import Verif.Lemmas.ScanText

/-! # Fields do not reach across blanks -/

namespace Pg

/-- The text is not empty and ends in a blank. -/
def Ends (a : Bytes) : Prop := ∃ x c, a = x ++ [c] ∧ isSpace c = true

/-- The last byte that is not a blank is not a sign. -/
def NoSign (a : Bytes) : Prop := ∀ x c y, a = x ++ c :: y → (∀ b ∈ y, isSpace b = true) → c ≠ 43 ∧ c ≠ 45

theorem Ends.suffix {a b : Bytes} (h : Ends a) (hs : b <:+ a) (hb : b ≠ []) : Ends b := by
  obtain ⟨x, c, rfl, hc⟩ := h
  obtain ⟨t, ht⟩ := hs
  rcases List.eq_nil_or_concat b with rfl | ⟨y, d, rfl⟩
  · exact absurd rfl hb
  · rw [List.concat_eq_append, ← List.append_assoc] at ht
    have := List.append_inj_right' ht rfl
    simp only [List.cons.injEq, and_true] at this
    subst this
    exact ⟨y, d, by simp, hc⟩

theorem NoSign.suffix {a b : Bytes} (h : NoSign a) (hs : b <:+ a) : NoSign b := by
  obtain ⟨t, rfl⟩ := hs
  intro x c y e hy
  exact h (t ++ x) c y (by rw [e, List.append_assoc]) hy

theorem Ends.ne {a : Bytes} (h : Ends a) : a ≠ [] := by
  obtain ⟨x, c, rfl, -⟩ := h
  simp

theorem Ends.tail {c : Nat} {a : Bytes} (h : Ends (c :: a)) (hc : isSpace c = false) : Ends a := by
  refine h.suffix (List.suffix_cons c a) ?_
  rintro rfl
  obtain ⟨x, d, e, hd⟩ := h
  cases x with
  | nil => cases e; rw [hc] at hd; cases hd
  | cons y x => simp at e

theorem drop_within {q : Nat → Bool} (hq : ∀ b, isSpace b = true → q b = false) {A : Bytes} (t : Bytes) (hA : Ends A) :
    ∃ B, B <:+ A ∧ B ≠ [] ∧ (A ++ t).dropWhile q = B ++ t := by
  induction A with
  | nil => exact absurd rfl hA.ne
  | cons c A ih =>
    cases hc : q c with
    | false => exact ⟨c :: A, List.suffix_refl _, by simp, by simp [hc]⟩
    | true =>
      have hs : isSpace c = false := by
        cases h : isSpace c with
        | false => rfl
        | true => rw [hq c h] at hc; cases hc
      obtain ⟨B, h1, h2, h3⟩ := ih (hA.tail hs)
      exact ⟨B, h1.trans (List.suffix_cons c A), h2, by simp [hc, h3]⟩

theorem space_cases {b : Nat} (h : isSpace b = true) : b = 32 ∨ b = 9 ∨ b = 10 ∨ b = 12 ∨ b = 13 := by
  simpa [isSpace, or_assoc] using h

theorem delim_within {d : Nat} (hd : isSpace d = false) {A : Bytes} (t : Bytes) (hA : Ends A) :
    ∃ B, B <:+ A ∧ B ≠ [] ∧ (scanDelim d (A ++ t)).2.2 = B ++ t := by
  unfold scanDelim
  obtain ⟨c, A', rfl⟩ : ∃ c A', A = c :: A' := List.exists_cons_of_ne_nil hA.ne
  have hne : ∀ b, isSpace b = true → b ≠ d := by rintro b hb rfl; rw [hd] at hb; cases hb
  simp only [List.cons_append]
  split
  · have h1 : (c :: (A' ++ t)) = (c :: A') ++ t := rfl
    obtain ⟨B, h2, h3, h4⟩ := drop_within (q := isDigit) (fun b h => by rcases space_cases h with rfl | rfl | rfl | rfl | rfl <;> rfl) t hA
    rw [h1, h4]
    split
    · obtain ⟨B', h5, h6, h7⟩ := drop_within (q := fun b => b = d || isDigit b) (fun b h => by
        have := hne b h
        rcases space_cases h with rfl | rfl | rfl | rfl | rfl <;> simpa [isDigit] using this) t (hA.suffix h2 h3)
      exact ⟨B', h5.trans h2, h6, h7⟩
    · exact ⟨B, h2, h3, rfl⟩
  · obtain ⟨B', h5, h6, h7⟩ := drop_within (q := fun b => b = d || isAlnum b) (fun b h => by
        have := hne b h
        rcases space_cases h with rfl | rfl | rfl | rfl | rfl <;> simpa [isAlnum, isAlpha, isUpper, isLower, isDigit] using this) t hA
    exact ⟨B', h5, h6, h7⟩

theorem digit_within {A : Bytes} (t : Bytes) (hA : Ends A) : ∃ B, B <:+ A ∧ B ≠ [] ∧ (scanDigit (A ++ t)).2 = B ++ t := by
  unfold scanDigit
  obtain ⟨B, h2, h3, h4⟩ := drop_within (q := isDigit) (fun b h => by rcases space_cases h with rfl | rfl | rfl | rfl | rfl <;> rfl) t hA
  rw [h4]
  have hB := hA.suffix h2 h3
  obtain ⟨c, B', rfl⟩ : ∃ c A', B = c :: A' := List.exists_cons_of_ne_nil h3
  simp only [List.cons_append]
  split
  · obtain ⟨C, h5, h6, h7⟩ := drop_within (q := isTimeB) (fun b h => by rcases space_cases h with rfl | rfl | rfl | rfl | rfl <;> rfl) t hB
    exact ⟨C, h5.trans h2, h6, h7⟩
  · split
    · rename_i hc
      have hs : isSpace c = false := by
        simp only [Bool.or_eq_true, decide_eq_true_eq] at hc
        rcases hc with (rfl | rfl) | rfl <;> rfl
      obtain ⟨C, h5, h6, h7⟩ := delim_within hs t (hB.tail hs)
      exact ⟨C, (h5.trans (List.suffix_cons c B')).trans h2, h6, h7⟩
    · exact ⟨c :: B', h2, by simp, rfl⟩

theorem field_within {u : TokenField} {c : Nat} {A t : Bytes} (hs : startB c = true) (hA : Ends (c :: A)) (hn : NoSign (c :: A))
    {f : Field} {rest : Bytes} (h : scanField u c (c :: (A ++ t)) = .ok (f, rest)) :
    ∃ B, B <:+ c :: A ∧ B ≠ [] ∧ rest = B ++ t := by
  have hsp : isSpace c = false := startB_noSpace hs
  unfold scanField at h
  split at h
  · obtain ⟨B, h1, h2, h3⟩ := digit_within t hA
    rw [List.cons_append] at h3
    have e := congrArg Prod.snd (Res.ok.inj h)
    exact ⟨B, h1, h2, e.symm.trans h3⟩
  · split at h
    · obtain ⟨B, h1, h2, h3⟩ := drop_within (q := isDigit) (fun b h => by rcases space_cases h with rfl | rfl | rfl | rfl | rfl <;> rfl) t (hA.tail hsp)
      simp only [scanDot] at h
      cases h
      exact ⟨B, h1.trans (List.suffix_cons _ _), h2, h3⟩
    · split at h
      · obtain ⟨B, h1, h2, h3⟩ := drop_within (q := isAlpha) (fun b h => by rcases space_cases h with rfl | rfl | rfl | rfl | rfl <;> rfl) t hA
        unfold scanAlpha at h
        rw [← List.cons_append, h3] at h
        rw [Res.bind_eq_ok] at h
        obtain ⟨b, -, h⟩ := h
        split at h
        · obtain ⟨B', h5, h6, h7⟩ := drop_within (q := isWordB) (fun b h => by rcases space_cases h with rfl | rfl | rfl | rfl | rfl <;> rfl) t (hA.suffix h1 h2)
          rw [h7] at h
          cases h
          exact ⟨B', h5.trans h1, h6, rfl⟩
        · cases h
          exact ⟨B, h1, h2, rfl⟩
      · rename_i h1 h2 h3
        have hc : c = 43 ∨ c = 45 := by
          simp only [startB, Bool.or_eq_true, decide_eq_true_eq] at hs
          simp only [Bool.not_eq_true] at h1 h3
          rw [h1, h3] at hs
          simp only [h2, Bool.false_eq_true, false_or] at hs
          tauto
        unfold scanSign at h
        have hA' := hA.tail hsp
        -- there is something besides blanks behind the sign
        obtain ⟨c', A', k1, k2⟩ : ∃ c' A', c' :: A' <:+ A ∧ (A ++ t).dropWhile isSpace = c' :: A' ++ t ∧ isSpace c' = false := by
          have : ∀ X : Bytes, (∀ b ∈ X, isSpace b = true) ∨ ∃ c' A', c' :: A' <:+ X ∧ (X ++ t).dropWhile isSpace = c' :: A' ++ t ∧
              isSpace c' = false := by
            intro X
            induction X with
            | nil => left; simp
            | cons x X ih =>
              cases hx : isSpace x with
              | false => right; exact ⟨x, X, List.suffix_refl _, by simp [hx], hx⟩
              | true =>
                rcases ih with ih | ⟨c', A', k1, k2, k3⟩
                · left; intro b hb; rcases List.mem_cons.1 hb with rfl | hb
                  · exact hx
                  · exact ih b hb
                · right; exact ⟨c', A', k1.trans (List.suffix_cons _ _), by simp [hx, ← k2], k3⟩
          rcases this A with h | h
          · have := hn [] c A rfl h
            omega
          · exact h
        have hE := hA'.suffix k1 (by simp)
        simp only [k2.1, List.cons_append] at h
        split at h
        · obtain ⟨B, h5, h6, h7⟩ := drop_within (q := isSignedB) (fun b h => by rcases space_cases h with rfl | rfl | rfl | rfl | rfl <;> rfl) t hE
          rw [List.cons_append] at h7
          rw [h7] at h
          cases h
          exact ⟨B, (h5.trans k1).trans (List.suffix_cons _ _), h6, rfl⟩
        · split at h
          · obtain ⟨B, h5, h6, h7⟩ := drop_within (q := isAlpha) (fun b h => by rcases space_cases h with rfl | rfl | rfl | rfl | rfl <;> rfl) t hE
            rw [List.cons_append] at h7
            rw [h7] at h
            cases h
            exact ⟨B, (h5.trans k1).trans (List.suffix_cons _ _), h6, rfl⟩
          · cases h

/-- The scanner reaches what follows a blank. -/
theorem scanLoop_within {u : TokenField} {t : Bytes} : ∀ (fuel : Nat) (A : Bytes) (cap nf : Nat) (l : List Field),
    (A = [] ∨ Ends A) → NoSign A → (A ++ t).length < fuel → scanLoop u fuel (A ++ t) cap nf = .ok l →
    ∃ l1 l2 fuel' cap' nf', l = l1 ++ l2 ∧ t.length < fuel' ∧ scanLoop u fuel' t cap' nf' = .ok l2 := by
  intro fuel
  induction fuel with
  | zero => intro A cap nf l _ _ h; omega
  | succ n ih =>
    intro A cap nf l hA hn hf h
    have spaces : ∀ X : Bytes, (X ++ t).dropWhile isSpace = t.dropWhile isSpace ∨ ∃ c' A', c' :: A' <:+ X ∧
        (X ++ t).dropWhile isSpace = c' :: A' ++ t ∧ isSpace c' = false := by
      intro X
      induction X with
      | nil => left; simp
      | cons x X ih =>
        cases hx : isSpace x with
        | false => right; exact ⟨x, X, List.suffix_refl _, by simp [hx], hx⟩
        | true =>
          rcases ih with ih | ⟨c', A', k1, k2, k3⟩
          · left; simpa [List.dropWhile_cons, hx] using ih
          · right; exact ⟨c', A', k1.trans (List.suffix_cons _ _), by simp [hx, ← k2], k3⟩
    rcases spaces A with hs | ⟨c, A', k1, k2, k3⟩
    · refine ⟨[], l, n + 1, cap, nf, rfl, ?_, ?_⟩
      · rw [List.length_append] at hf; omega
      · rw [scanLoop] at h ⊢
        rw [hs] at h
        exact h
    · have hA : Ends A := by
        rcases hA with rfl | hA
        · exact absurd (List.suffix_nil.1 k1) (by simp)
        · exact hA
      have hE := hA.suffix k1 (by simp)
      have hlen : (c :: A').length ≤ A.length := k1.length_le
      rw [scanLoop, k2] at h
      simp only [List.cons_append] at h
      split at h
      · cases h
      · split at h
        · rename_i hst
          split at h
          · cases h
          · rw [Res.bind_eq_ok] at h
            obtain ⟨⟨f, rest⟩, h1, h⟩ := h
            obtain ⟨B, b1, b2, rfl⟩ := field_within (t := t) (show startB c = true from hst) hE (hn.suffix k1) h1
            simp only at h
            split at h
            · cases h
            · rw [Res.bind_eq_ok] at h
              obtain ⟨l', h2, h⟩ := h
              cases h
              have hlt : (B ++ t).length < n := by
                rcases scanField_spec u (c := c) (A' ++ t) hst with e | ⟨f', rest', used, e, e2, e3, e4⟩
                · rw [e] at h1; cases h1
                · rw [e] at h1
                  cases h1
                  have := e3.length
                  have h5 : 0 < f.2.length := List.length_pos_iff.2 e4
                  have h6 := congrArg List.length e2
                  simp only [List.length_append, List.length_cons] at h6 hf hlen ⊢
                  omega
              obtain ⟨l1, l2, fu, ca, nf', e, h3, h4⟩ := ih B _ _ _ (Or.inr (hE.suffix b1 b2)) ((hn.suffix k1).suffix b1) hlt h2
              exact ⟨f :: l1, l2, fu, ca, nf', by rw [e]; rfl, h3, h4⟩
        · split at h
          · rename_i hp
            obtain ⟨B, b1, b2, b3⟩ := drop_within (q := isPunct) (fun b h => by rcases space_cases h with rfl | rfl | rfl | rfl | rfl <;> rfl) t (hE.tail k3)
            have e : (c :: (A' ++ t)).dropWhile isPunct = B ++ t := by rw [List.dropWhile_cons, if_pos hp, b3]
            rw [e] at h
            have hb := b1.length_le
            exact ih B _ _ _ (Or.inr ((hE.tail k3).suffix b1 b2)) (((hn.suffix k1).suffix (List.suffix_cons _ _)).suffix b1) (by
              simp only [List.length_append, List.length_cons] at hf hlen ⊢; omega) h
          · cases h

end Pg
