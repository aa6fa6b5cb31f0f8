import Verif.Lemmas.Cuts
import Verif.Lemmas.Vocabulary
import Verif.Lemmas.FirstDate

/-! # Two texts that differ in one word: the fields -/

namespace Pg
open Spec

/-- What stands behind a blank has no influence on where a field before it ends. -/
theorem take_within {q : Nat → Bool} (hq : ∀ b, isSpace b = true → q b = false) {A : Bytes} (t : Bytes) (hA : Ends A) :
    (A ++ t).takeWhile q = A.takeWhile q ∧ (A ++ t).dropWhile q = A.dropWhile q ++ t ∧ Ends (A.dropWhile q) := by
  induction A with
  | nil => exact absurd rfl hA.ne
  | cons c A ih =>
    cases hc : q c with
    | false => exact ⟨by simp [hc], by simp [hc], by simpa [hc] using hA⟩
    | true =>
      have hs : isSpace c = false := by
        cases h : isSpace c with
        | false => rfl
        | true => rw [hq c h] at hc; cases hc
      obtain ⟨h1, h2, h3⟩ := ih (hA.tail hs)
      exact ⟨by simp [hc, h1], by simp [hc, h2], by simpa [hc] using h3⟩

theorem digit_space : ∀ b, isSpace b = true → isDigit b = false := fun b h => by rcases space_cases h with rfl | rfl | rfl | rfl | rfl <;> rfl
theorem alpha_space : ∀ b, isSpace b = true → isAlpha b = false := fun b h => by rcases space_cases h with rfl | rfl | rfl | rfl | rfl <;> rfl

theorem delim_append {d : Nat} (hd : isSpace d = false) {A : Bytes} (t : Bytes) (hA : Ends A) :
    scanDelim d (A ++ t) = ((scanDelim d A).1, (scanDelim d A).2.1, (scanDelim d A).2.2 ++ t) := by
  have hne : ∀ b, isSpace b = true → b ≠ d := by rintro b hb rfl; rw [hd] at hb; cases hb
  obtain ⟨c, A', rfl⟩ : ∃ c A', A = c :: A' := List.exists_cons_of_ne_nil hA.ne
  obtain ⟨h1, h2, h3⟩ := take_within (q := isDigit) digit_space t hA
  obtain ⟨k1, k2, -⟩ := take_within (q := fun b => b = d || isDigit b) (fun b h => by
        have := hne b h
        rcases space_cases h with rfl | rfl | rfl | rfl | rfl <;> simpa [isDigit] using this) t h3
  obtain ⟨m1, m2, -⟩ := take_within (q := fun b => b = d || isAlnum b) (fun b h => by
        have := hne b h
        rcases space_cases h with rfl | rfl | rfl | rfl | rfl <;> simpa [isAlnum, isAlpha, isUpper, isLower, isDigit] using this) t hA
  have e : (((c :: A').dropWhile isDigit) ++ t).head? = ((c :: A').dropWhile isDigit).head? := by
    obtain ⟨x, y, e⟩ := List.exists_cons_of_ne_nil h3.ne
    rw [e]; rfl
  have l : scanDelim d (c :: (A' ++ t)) = scanDelim d (c :: A' ++ t) := rfl
  rw [← l]
  unfold scanDelim
  dsimp only
  rw [← List.cons_append]
  split
  · rw [h2, e]
    split
    · rw [k1, k2, h1]
    · rw [h1]
  · rw [m1, m2]

theorem scanDigit_append {A : Bytes} (t : Bytes) (hA : Ends A) : scanDigit (A ++ t) = ((scanDigit A).1, (scanDigit A).2 ++ t) := by
  obtain ⟨h1, h2, h3⟩ := take_within (q := isDigit) digit_space t hA
  unfold scanDigit
  rw [h1, h2]
  obtain ⟨c, B, e⟩ := List.exists_cons_of_ne_nil h3.ne
  rw [e] at h3 ⊢
  obtain ⟨k1, k2, -⟩ := take_within (q := isTimeB) (fun b h => by rcases space_cases h with rfl | rfl | rfl | rfl | rfl <;> rfl) t h3
  simp only [List.cons_append]
  rw [← List.cons_append]
  split
  · rw [k1, k2]
  · split
    · rename_i hc
      have hs : isSpace c = false := by
        simp only [Bool.or_eq_true, decide_eq_true_eq] at hc
        rcases hc with (rfl | rfl) | rfl <;> rfl
      rw [delim_append hs t (h3.tail hs)]
    · rfl

/-- The same field, whatever stands behind the blank. -/
theorem field_append {u : TokenField} {c : Nat} {A : Bytes} (hs : startB c = true) (hA : Ends (c :: A)) (hn : NoSign (c :: A)) (t t' : Bytes) {f : Field} {B : Bytes}
    (h : scanField u c (c :: (A ++ t)) = .ok (f, B ++ t)) : scanField u c (c :: (A ++ t')) = .ok (f, B ++ t') := by
  have hsp : isSpace c = false := startB_noSpace hs
  have hA' := hA.tail hsp
  unfold scanField at h ⊢
  split at h
  · rename_i hd
    rw [if_pos hd]
    rw [← List.cons_append, scanDigit_append t hA] at h
    rw [← List.cons_append, scanDigit_append t' hA]
    simp only [Res.ok.injEq, Prod.mk.injEq] at h
    rw [h.1, List.append_cancel_right h.2]
  · rename_i hd
    rw [if_neg hd]
    split at h
    · rename_i h46
      rw [if_pos h46]
      obtain ⟨h1, h2, -⟩ := take_within (q := isDigit) digit_space t hA'
      obtain ⟨k1, k2, -⟩ := take_within (q := isDigit) digit_space t' hA'
      simp only [scanDot, h1, h2, Res.ok.injEq, Prod.mk.injEq] at h
      simp only [scanDot, k1, k2]
      rw [← h.1, List.append_cancel_right h.2]
    · rename_i h46
      rw [if_neg h46]
      split at h
      · rename_i ha
        rw [if_pos ha]
        unfold scanAlpha at h ⊢
        rw [← List.cons_append] at h ⊢
        obtain ⟨h1, h2, h3⟩ := take_within (q := isAlpha) alpha_space t hA
        obtain ⟨k1, k2, -⟩ := take_within (q := isAlpha) alpha_space t' hA
        rw [h1, h2] at h
        rw [k1, k2]
        have e : ∀ (w : Bytes) (t : Bytes), alphaIsDate w (List.dropWhile isAlpha (c :: A) ++ t) = alphaIsDate w (List.dropWhile isAlpha (c :: A)) := by
          intro w t
          obtain ⟨x, y, e⟩ := List.exists_cons_of_ne_nil h3.ne
          rw [e]; rfl
        simp only [e] at h ⊢
        cases hb : alphaIsDate (lower (List.takeWhile isAlpha (c :: A))) (List.dropWhile isAlpha (c :: A)) with
        | err e => rw [hb] at h; cases h
        | panic => rw [hb] at h; cases h
        | ok b =>
          rw [hb] at h
          simp only [Res.bind_ok] at h ⊢
          obtain ⟨m1, m2, -⟩ := take_within (q := isWordB) (fun b h => by rcases space_cases h with rfl | rfl | rfl | rfl | rfl <;> rfl) t h3
          obtain ⟨n1, n2, -⟩ := take_within (q := isWordB) (fun b h => by rcases space_cases h with rfl | rfl | rfl | rfl | rfl <;> rfl) t' h3
          cases b
          · simp only [Bool.false_eq_true, if_false, Res.ok.injEq, Prod.mk.injEq] at h ⊢
            exact ⟨h.1, by rw [List.append_cancel_right h.2]⟩
          · simp only [if_true, m1, m2, n1, n2, Res.ok.injEq, Prod.mk.injEq] at h ⊢
            exact ⟨h.1, by rw [List.append_cancel_right h.2]⟩
      · rename_i ha
        rw [if_neg ha]
        have hc : c = 43 ∨ c = 45 := by
          simp only [startB, Bool.or_eq_true, decide_eq_true_eq] at hs
          simp only [Bool.not_eq_true] at hd ha
          rw [hd, ha] at hs
          simp only [h46, Bool.false_eq_true, false_or] at hs
          tauto
        -- there is something besides blanks behind the sign
        have sp : ∀ X : Bytes, (∀ b ∈ X, isSpace b = true) ∨ ∃ c' A', c' :: A' <:+ X ∧ (∀ t, (X ++ t).dropWhile isSpace = c' :: (A' ++ t)) ∧
            isSpace c' = false := by
          intro X
          induction X with
          | nil => left; simp
          | cons x X ih =>
            cases hx : isSpace x with
            | false => right; exact ⟨x, X, List.suffix_refl _, by simp [hx], hx⟩
            | true =>
              rcases ih with ih | ⟨c', A', k1, k2, k3⟩
              · left; intro b hb; rcases List.mem_cons.1 hb with rfl | hb
                · exact hx
                · exact ih b hb
              · right; exact ⟨c', A', k1.trans (List.suffix_cons _ _), by intro t; simp [hx, ← k2], k3⟩
        obtain ⟨c', A', k1, k2, k3⟩ : ∃ c' A', c' :: A' <:+ A ∧ (∀ t, (A ++ t).dropWhile isSpace = c' :: (A' ++ t)) ∧ isSpace c' = false := by
          rcases sp A with h | h
          · have := hn [] c A rfl h
            omega
          · exact h
        have hE := hA'.suffix k1 (by simp)
        unfold scanSign at h ⊢
        simp only [k2, ← List.cons_append] at h ⊢
        obtain ⟨h1, h2, -⟩ := take_within (q := isSignedB) (fun b h => by rcases space_cases h with rfl | rfl | rfl | rfl | rfl <;> rfl) t hE
        obtain ⟨i1, i2, -⟩ := take_within (q := isSignedB) (fun b h => by rcases space_cases h with rfl | rfl | rfl | rfl | rfl <;> rfl) t' hE
        obtain ⟨m1, m2, -⟩ := take_within (q := isAlpha) alpha_space t hE
        obtain ⟨n1, n2, -⟩ := take_within (q := isAlpha) alpha_space t' hE
        simp only [List.cons_append] at h ⊢
        simp only [← List.cons_append] at h ⊢
        split at h
        · rename_i hx
          rw [if_pos hx]
          rw [h1, h2] at h
          rw [i1, i2]
          simp only [Res.ok.injEq, Prod.mk.injEq] at h ⊢
          exact ⟨h.1, by rw [List.append_cancel_right h.2]⟩
        · rename_i hx
          rw [if_neg hx]
          split at h
          · rename_i hy
            rw [if_pos hy]
            rw [m1, m2] at h
            rw [n1, n2]
            simp only [Res.ok.injEq, Prod.mk.injEq] at h ⊢
            exact ⟨h.1, by rw [List.append_cancel_right h.2]⟩
          · cases h

/-- The fields of two texts that begin alike, up to a blank. -/
theorem scanLoop_swap {u : TokenField} {t t' : Bytes} {R : List Field → List Field → Prop} (hlen : t'.length = t.length)
    (H : ∀ (fuel cap nf : Nat) (l : List Field), t.length < fuel → scanLoop u fuel t cap nf = .ok l →
      ∃ l', R l l' ∧ scanLoop u fuel t' cap nf = .ok l') :
    ∀ (fuel : Nat) (A : Bytes) (cap nf : Nat) (l : List Field), (A = [] ∨ Ends A) → NoSign A → (A ++ t).length < fuel →
    scanLoop u fuel (A ++ t) cap nf = .ok l →
    ∃ l1 l2 l2', l = l1 ++ l2 ∧ R l2 l2' ∧ scanLoop u fuel (A ++ t') cap nf = .ok (l1 ++ l2') := by
  intro fuel
  induction fuel with
  | zero => intro A cap nf l _ _ h; omega
  | succ n ih =>
    intro A cap nf l hA hn hf h
    have spaces : ∀ X : Bytes, (∀ t : Bytes, (X ++ t).dropWhile isSpace = t.dropWhile isSpace) ∨ ∃ c' A', c' :: A' <:+ X ∧
        (∀ t, (X ++ t).dropWhile isSpace = c' :: (A' ++ t)) ∧ isSpace c' = false := by
      intro X
      induction X with
      | nil => left; simp
      | cons x X ih =>
        cases hx : isSpace x with
        | false => right; exact ⟨x, X, List.suffix_refl _, by simp [hx], hx⟩
        | true =>
          rcases ih with ih | ⟨c', A', k1, k2, k3⟩
          · left; intro t; simpa [List.dropWhile_cons, hx] using ih t
          · right; exact ⟨c', A', k1.trans (List.suffix_cons _ _), by intro t; simp [hx, ← k2], k3⟩
    rcases spaces A with hs | ⟨c, A', k1, k2, k3⟩
    · have e : ∀ t : Bytes, scanLoop u (n + 1) (A ++ t) cap nf = scanLoop u (n + 1) t cap nf := by
        intro t; rw [scanLoop, scanLoop, hs]
      rw [e] at h
      obtain ⟨l', h1, h2⟩ := H (n + 1) cap nf l (by rw [List.length_append] at hf; omega) h
      exact ⟨[], l, l', rfl, h1, by rw [e]; exact h2⟩
    · have hA : Ends A := by
        rcases hA with rfl | hA
        · exact absurd (List.suffix_nil.1 k1) (by simp)
        · exact hA
      have hE := hA.suffix k1 (by simp)
      have hlen' : (c :: A').length ≤ A.length := k1.length_le
      rw [scanLoop, k2] at h ⊢
      simp only at h ⊢
      split at h
      · cases h
      · rename_i hnf
        rw [if_neg hnf]
        split at h
        · rename_i hst
          rw [if_pos hst]
          split at h
          · cases h
          · rename_i hcap
            rw [if_neg hcap]
            rw [Res.bind_eq_ok] at h
            obtain ⟨⟨f, rest⟩, h1, h⟩ := h
            obtain ⟨B, b1, b2, rfl⟩ := field_within (t := t) (show startB c = true from hst) hE (hn.suffix k1) h1
            rw [field_append (show startB c = true from hst) hE (hn.suffix k1) t t' h1]
            simp only [Res.bind_ok] at h ⊢
            split at h
            · cases h
            · rename_i hfl
              rw [if_neg hfl]
              rw [Res.bind_eq_ok] at h
              obtain ⟨l', h2, h⟩ := h
              cases h
              have hlt : (B ++ t).length < n := by
                rcases scanField_spec u (c := c) (A' ++ t) hst with e | ⟨f', rest', used, e, e2, e3, e4⟩
                · rw [e] at h1; cases h1
                · rw [e] at h1
                  cases h1
                  have := e3.length
                  have h5 : 0 < f.2.length := List.length_pos_iff.2 e4
                  have h6 := congrArg List.length e2
                  simp only [List.length_append, List.length_cons] at h6 hf hlen' ⊢
                  omega
              obtain ⟨l1, l2, l2', e, h3, h4⟩ := ih B _ _ _ (Or.inr (hE.suffix b1 b2)) ((hn.suffix k1).suffix b1) hlt h2
              rw [h4]
              exact ⟨f :: l1, l2, l2', by rw [e]; rfl, h3, rfl⟩
        · rename_i hst
          rw [if_neg hst]
          split at h
          · rename_i hp
            rw [if_pos hp]
            have hq : ∀ b, isSpace b = true → isPunct b = false := fun b h => by rcases space_cases h with rfl | rfl | rfl | rfl | rfl <;> rfl
            obtain ⟨B, b1, b2, b3⟩ := drop_within (q := isPunct) hq t (hE.tail k3)
            have d1 := (take_within hq t (hE.tail k3)).2.1
            have d2 := (take_within hq t' (hE.tail k3)).2.1
            rw [b3] at d1
            have e : (c :: (A' ++ t)).dropWhile isPunct = B ++ t := by rw [List.dropWhile_cons, if_pos hp, b3]
            have e' : (c :: (A' ++ t')).dropWhile isPunct = B ++ t' := by
              rw [List.dropWhile_cons, if_pos hp, d2, List.append_cancel_right d1]
            rw [e] at h
            rw [e']
            have hb := b1.length_le
            exact ih B _ _ _ (Or.inr ((hE.tail k3).suffix b1 b2)) (((hn.suffix k1).suffix (List.suffix_cons _ _)).suffix b1) (by
              simp only [List.length_append, List.length_cons] at hf hlen' ⊢; omega) h
          · cases h

/-- Two words of the same length that make one field each. -/
theorem scanLoop_oneWord {u : TokenField} {b b' : Nat} {r r' c : Bytes} {f f' : Field} (h1 : startB b = true) (h1' : startB b' = true)
    (h2 : scanField u b (b :: (r ++ c)) = .ok (f, c)) (h2' : scanField u b' (b' :: (r' ++ c)) = .ok (f', c)) (hl : f'.2.length = f.2.length) :
    ∀ (fuel cap nf : Nat) (l : List Field), (b :: (r ++ c)).length < fuel → scanLoop u fuel (b :: (r ++ c)) cap nf = .ok l →
      ∃ l', (∃ l2, l = f :: l2 ∧ l' = f' :: l2 ∧ ∃ n cap nf, c.length < n ∧ scanLoop u n c cap nf = .ok l2) ∧
        scanLoop u fuel (b' :: (r' ++ c)) cap nf = .ok l' := by
  intro fuel cap nf l hf h
  cases fuel with
  | zero => omega
  | succ n =>
    have hs : isSpace b = false := startB_noSpace h1
    have hs' : isSpace b' = false := startB_noSpace h1'
    rw [scanLoop] at h ⊢
    simp only [List.dropWhile_cons_of_neg (show ¬ isSpace b = true by rw [hs]; decide)] at h
    simp only [List.dropWhile_cons_of_neg (show ¬ isSpace b' = true by rw [hs']; decide)]
    split at h
    · cases h
    · rename_i hnf
      rw [if_neg hnf, if_pos (show (isDigit b' || b' = 46 || isAlpha b' || b' = 43 || b' = 45) = true from h1')]
      rw [if_pos (show (isDigit b || b = 46 || isAlpha b || b = 43 || b = 45) = true from h1)] at h
      split at h
      · cases h
      · rename_i hcap
        rw [if_neg hcap, h2']
        rw [h2] at h
        simp only [Res.bind_ok, hl] at h ⊢
        split at h
        · cases h
        · rename_i hfl
          rw [if_neg hfl]
          rw [Res.bind_eq_ok] at h
          obtain ⟨l2, h4, h⟩ := h
          cases h
          rw [h4]
          exact ⟨f' :: l2, ⟨l2, rfl, rfl, _, _, _, by simp only [List.length_cons, List.length_append] at hf; omega, h4⟩, rfl⟩

/-- The same field before both. -/
theorem scanLoop_sameField {u : TokenField} {b : Nat} {r x x' : Bytes} {f : Field} {R : List Field → List Field → Prop} (h1 : startB b = true)
    (h2 : scanField u b (b :: (r ++ x)) = .ok (f, x)) (h2' : scanField u b (b :: (r ++ x')) = .ok (f, x'))
    (H : ∀ (fuel cap nf : Nat) (l : List Field), x.length < fuel → scanLoop u fuel x cap nf = .ok l → ∃ l', R l l' ∧ scanLoop u fuel x' cap nf = .ok l') :
    ∀ (fuel cap nf : Nat) (l : List Field), (b :: (r ++ x)).length < fuel → scanLoop u fuel (b :: (r ++ x)) cap nf = .ok l →
      ∃ l', (∃ m m', l = f :: m ∧ l' = f :: m' ∧ R m m') ∧ scanLoop u fuel (b :: (r ++ x')) cap nf = .ok l' := by
  intro fuel cap nf l hf h
  cases fuel with
  | zero => omega
  | succ n =>
    have hs : isSpace b = false := startB_noSpace h1
    rw [scanLoop] at h ⊢
    simp only [List.dropWhile_cons_of_neg (show ¬ isSpace b = true by rw [hs]; decide)] at h ⊢
    split at h
    · cases h
    · rename_i hnf
      rw [if_neg hnf, if_pos (show (isDigit b || b = 46 || isAlpha b || b = 43 || b = 45) = true from h1)]
      rw [if_pos (show (isDigit b || b = 46 || isAlpha b || b = 43 || b = 45) = true from h1)] at h
      split at h
      · cases h
      · rename_i hcap
        rw [if_neg hcap, h2']
        rw [h2] at h
        simp only [Res.bind_ok] at h ⊢
        split at h
        · cases h
        · rename_i hfl
          rw [if_neg hfl]
          rw [Res.bind_eq_ok] at h
          obtain ⟨l2, h4, h⟩ := h
          cases h
          obtain ⟨l3, h5, h6⟩ := H _ _ _ _ (by simp only [List.length_cons, List.length_append] at hf; omega) h4
          rw [h6]
          exact ⟨f :: l3, ⟨l2, l3, rfl, rfl, h5⟩, rfl⟩

/-- The letter `t` before a digit. -/
theorem t_scan (u : TokenField) {b d : Nat} (hb : b = 84 ∨ b = 116) (hd : isDigit d = true) (c : Bytes) :
    startB b = true ∧ scanField u b (b :: d :: c) = .ok ((.string, b!"t"), d :: c) := by
  have ha : isAlpha d = false := by
    rw [isDigit_iff] at hd
    rw [Bool.eq_false_iff, ne_eq, isAlpha_iff]
    omega
  have hn : d ≠ 45 ∧ d ≠ 47 ∧ d ≠ 46 := by
    rw [isDigit_iff] at hd
    omega
  have key : ∀ b, isAlpha b = true → isDigit b = false → b ≠ 46 → lower [b] = b!"t" → scanField u b (b :: d :: c) = .ok ((.string, b!"t"), d :: c) := by
    intro b h1 h2 h3 h4
    rw [scanField, if_neg (by simp [h2]), if_neg h3, if_pos h1, scanAlpha]
    rw [List.takeWhile_cons, if_pos h1, List.takeWhile_cons, if_neg (by simp [ha]), List.dropWhile_cons, if_pos h1, List.dropWhile_cons, if_neg (by simp [ha]), h4]
    have : alphaIsDate b!"t" (d :: c) = .ok false := by
      unfold alphaIsDate
      dsimp only
      rw [if_neg (by simp [hn]), if_pos (by simp [hd]), searchDate_eq]
      rfl
    rw [this]
    rfl
  rcases hb with rfl | rfl
  · exact ⟨by decide, key _ (by decide) (by decide) (by decide) (by decide)⟩
  · exact ⟨by decide, key _ (by decide) (by decide) (by decide) (by decide)⟩

/-- A numeric date before another byte. -/
theorem date_scan (u : TokenField) {d : Nat} {a b c r : Bytes} (hd : isSep d) (ha : Digits a) (na : a ≠ []) (hb : Digits b) (nb : b ≠ [])
    (hc : Digits c) (hst : Stops (fun y => y = d || isDigit y) r) :
    ∃ y z, numericDate d a b c = y :: z ∧ startB y = true ∧ scanField u y (numericDate d a b c ++ r) = .ok ((.date, numericDate d a b c), r) := by
  have en : numericDate d a b c = a ++ d :: (b ++ d :: c) := by simp [numericDate]
  have hsc : scanDigit (a ++ (d :: (b ++ d :: c) ++ r)) = ((.date, a ++ d :: (b ++ d :: c)), r) := by
    rw [scanDigit, List.cons_append, takeWhile_span (digits_isDigit ha) (Stops.cons hd.notDigit),
      dropWhile_span (digits_isDigit ha) (Stops.cons hd.notDigit)]
    simp only
    obtain ⟨y, z, e, hy, -⟩ := digit_head (r := d :: (c ++ r)) hb nb
    have hsd : scanDelim d (b ++ d :: c ++ r) = (.date, d :: (b ++ d :: c), r) := by
      rw [List.append_assoc, List.cons_append]
      rw [e, scanDelim, if_pos hy, ← e, dropWhile_span (digits_isDigit hb) (Stops.cons hd.notDigit),
        takeWhile_span (digits_isDigit hb) (Stops.cons hd.notDigit)]
      simp only [List.head?_cons, if_true]
      have hall : ∀ y ∈ d :: c, (decide (y = d) || isDigit y) = true := by
        intro y hy
        rcases List.mem_cons.1 hy with rfl | hy
        · simp
        · simp [digits_isDigit hc y hy]
      have e5 : d :: (c ++ r) = (d :: c) ++ r := rfl
      rw [e5, takeWhile_span hall hst, dropWhile_span hall hst]
    rw [hsd]
    rcases hd with rfl | rfl | rfl <;> simp
  obtain ⟨b', r', e, k1, k2⟩ := digit_word (u := u) ha na hsc
  rw [en]
  refine ⟨b', r' ++ d :: (b ++ d :: c), by rw [e]; rfl, k1, ?_⟩
  rw [List.append_assoc]
  exact k2

/-- The fields of two texts that begin alike and then differ in one field. -/
theorem scan_swapGen {u : TokenField} {A t t' : Bytes} {R : List Field → List Field → Prop} (hA : A = [] ∨ Ends A) (hn : NoSign A) (ht : t ≠ [])
    (hl : t'.length = t.length) (H : ∀ (fuel cap nf : Nat) (l : List Field), t.length < fuel → scanLoop u fuel t cap nf = .ok l →
      ∃ l', R l l' ∧ scanLoop u fuel t' cap nf = .ok l') {l : List Field} (h : scan u (A ++ t) = .ok l) :
    ∃ l1 l2 l2', l = l1 ++ l2 ∧ R l2 l2' ∧ scan u (A ++ t') = .ok (l1 ++ l2') := by
  have ht' : t' ≠ [] := by rw [← List.length_pos_iff, hl, List.length_pos_iff]; exact ht
  have ne : ∀ t, t ≠ [] → (A ++ t).isEmpty = false := by intro t ht; cases A <;> cases t <;> simp_all
  unfold scan at h ⊢
  rw [ne _ ht] at h
  rw [ne _ ht']
  simp only [Bool.false_eq_true, if_false] at h ⊢
  have hll : (A ++ t').length = (A ++ t).length := by simp only [List.length_append, hl]
  rw [hll]
  exact scanLoop_swap hl H _ A _ _ _ hA hn (Nat.lt_succ_self _) h

/-- What may stand directly before a clock time: nothing, the letter `t`, or a numeric date with the letter `t`. -/
def TimeLead (X : Bytes) : Prop :=
  X = [] ∨ ∃ b, (b = 84 ∨ b = 116) ∧ (X = [b] ∨ ∃ d x y z, isSep d ∧ (Digits x ∧ x ≠ []) ∧ (Digits y ∧ y ≠ []) ∧ (Digits z ∧ z ≠ []) ∧ X = numericDate d x y z ++ [b])

/-- The fields of two texts that differ in one clock time. -/
theorem scan_swap {u : TokenField} {A X w w' c : Bytes} (hA : A = [] ∨ Ends A) (hn : NoSign A) (hX : TimeLead X) (hw : Mark.clock.Is w)
    (hw' : Mark.clock.Is w') (hl : w'.length = w.length) (hc : Stops isTimeB c) {l : List Field} (h : scan u (A ++ (X ++ (w ++ c))) = .ok l) :
    ∃ l1 l2, l = l1 ++ (.time, w) :: l2 ∧ scan u (A ++ (X ++ (w' ++ c))) = .ok (l1 ++ (.time, w') :: l2) ∧
      ∃ n cap nf, c.length < n ∧ scanLoop u n c cap nf = .ok l2 := by
  obtain ⟨b, r, e, h1, h2⟩ := clock_scan (u := u) hw hc
  obtain ⟨b', r', e', h1', h2'⟩ := clock_scan (u := u) hw' hc
  have digit : ∀ {w : Bytes}, Mark.clock.Is w → ∀ {b r}, w = b :: r → isDigit b = true := by
    rintro w ⟨x, y, rfl, nx, hx, -⟩ b r e
    obtain ⟨q, qs, rfl⟩ := List.exists_cons_of_ne_nil nx
    cases e
    exact digits_isDigit hx _ (by simp)
  have d1 := digit hw e
  have d2 := digit hw' e'
  have H := scanLoop_oneWord (u := u) (r := r) (r' := r') (c := c) h1 h1' (by rw [← List.cons_append, ← e]; exact h2)
    (by rw [← List.cons_append, ← e']; exact h2') hl
  have lt : ∀ {b}, (b = 84 ∨ b = 116) → _ := fun {q} hq =>
    scanLoop_sameField (u := u) (r := []) (x := b :: (r ++ c)) (x' := b' :: (r' ++ c)) (t_scan u hq d1 (r ++ c)).1 (t_scan u hq d1 _).2 (t_scan u hq d2 _).2 H
  have hll : (w' ++ c).length = (w ++ c).length := by simp only [List.length_append, hl]
  have ew : w ++ c = b :: (r ++ c) := by rw [e]; rfl
  have ew' : w' ++ c = b' :: (r' ++ c) := by rw [e']; rfl
  have nw : w ++ c ≠ [] := by rw [ew]; simp
  rcases hX with rfl | ⟨q, hq, rfl | ⟨d, x, y, z, hd, ⟨hx, nx⟩, ⟨hy, ny⟩, ⟨hz, nz⟩, rfl⟩⟩
  · rw [← ew, ← ew'] at H
    obtain ⟨l1, l2, l2', rfl, ⟨l3, rfl, rfl, hr⟩, h3⟩ := scan_swapGen hA hn nw hll H h
    exact ⟨l1, l3, rfl, h3, hr⟩
  · have H' := lt hq
    rw [← ew, ← ew'] at H'
    obtain ⟨l1, l2, l2', rfl, ⟨m, m', rfl, rfl, l3, rfl, rfl, hr⟩, h3⟩ := scan_swapGen (t := [q] ++ (w ++ c)) (t' := [q] ++ (w' ++ c)) hA hn (by simp)
      (by simp only [List.length_append, List.length_cons] at hll ⊢; omega) H' h
    exact ⟨l1 ++ [(.string, b!"t")], l3, by simp, by rw [h3]; simp, hr⟩
  · have hst : ∀ s, Stops (fun y => y = d || isDigit y) (q :: s) := by
      intro s
      refine Stops.cons ?_
      rcases hq with rfl | rfl <;> rcases hd with rfl | rfl | rfl <;> decide
    obtain ⟨y1, z1, e1, s1, s2⟩ := date_scan u hd hx nx hy ny hz (hst (w ++ c))
    obtain ⟨y2, z2, e2, -, s3⟩ := date_scan u hd hx nx hy ny hz (hst (w' ++ c))
    obtain ⟨rfl, rfl⟩ : y2 = y1 ∧ z2 = z1 := by rw [e1] at e2; cases e2; exact ⟨rfl, rfl⟩
    have H' := lt hq
    rw [← ew, ← ew'] at H'
    have H2 := scanLoop_sameField (u := u) (r := z2) (x := q :: (w ++ c)) (x' := q :: (w' ++ c)) s1 (by rw [e1] at s2; exact s2) (by rw [e1] at s3; exact s3) H'
    have en : ∀ w : Bytes, (numericDate d x y z ++ [q]) ++ w = y2 :: (z2 ++ q :: w) := by intro w; rw [e1]; simp
    rw [en] at h ⊢
    obtain ⟨l1, l2, l2', rfl, ⟨n, n', rfl, rfl, m, m', rfl, rfl, l3, rfl, rfl, hr⟩, h3⟩ := scan_swapGen hA hn (by simp)
      (by simp only [List.length_append, List.length_cons] at hll ⊢; omega) H2 h
    exact ⟨l1 ++ [(.date, y2 :: z2), (.string, b!"t")], l3, by simp, by rw [h3]; simp, hr⟩

end Pg
