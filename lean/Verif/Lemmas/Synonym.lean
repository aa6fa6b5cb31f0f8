import Verif.Spec.Synonym
import Verif.Lemmas.Swap
import Verif.Lemmas.MinuteRun

/-! # Words that mean the same -/

namespace Pg
open Spec

variable {u : TokenField}

/-- A large enough work area does not matter. -/
theorem scanLoop_enough : ∀ (fuel : Nat) (s : Bytes) (cap nf fuel' cap' : Nat), s.length < fuel → s.length ≤ cap → s.length < fuel' →
    s.length ≤ cap' → scanLoop u fuel s cap nf = scanLoop u fuel' s cap' nf := by
  intro fuel
  induction fuel with
  | zero => intro s cap nf fuel' cap' h; omega
  | succ n ih =>
    intro s cap nf fuel' cap' h1 h2 h3 h4
    cases fuel' with
    | zero => omega
    | succ n' =>
      have hl : (s.dropWhile isSpace).length ≤ s.length := (List.dropWhile_suffix _).length_le
      rw [scanLoop, scanLoop]
      cases hd : s.dropWhile isSpace with
      | nil => rfl
      | cons c r =>
        rw [hd] at hl
        simp only [List.length_cons] at hl
        dsimp only
        split
        · rfl
        · split
          · rename_i hst
            rw [if_neg (by omega), if_neg (by omega)]
            rcases scanField_spec u r hst with e | ⟨f, rest, used, e1, e2, e3, e4⟩
            · rw [e]; rfl
            · rw [e1, Res.bind_ok, Res.bind_ok]
              have k1 := e3.length
              have k2 := congrArg List.length e2
              have k3 := List.length_pos_iff.2 e4
              simp only [List.length_append, List.length_cons] at k2
              dsimp only
              rw [if_neg (by omega), if_neg (by omega)]
              rw [ih rest _ _ n' (cap' - f.2.length) (by omega) (by omega) (by omega) (by omega)]
          · split
            · rename_i hp
              have k : ((c :: r).dropWhile isPunct).length ≤ r.length := by
                rw [List.dropWhile_cons, if_pos hp]; exact (List.dropWhile_suffix _).length_le
              exact ih _ _ _ _ _ (by omega) (by omega) (by omega) (by omega)
            · rfl

/-- The fields of two texts that begin alike, up to a blank, and are as long as they like. -/
theorem scanLoop_exchange {t t' : Bytes} {R : List Field → List Field → Prop}
    (H : ∀ (fuel cap nf : Nat) (l : List Field), t.length < fuel → t.length ≤ cap → scanLoop u fuel t cap nf = .ok l →
      ∃ l', R l l' ∧ ∀ fuel' cap', t'.length < fuel' → t'.length ≤ cap' → scanLoop u fuel' t' cap' nf = .ok l') :
    ∀ (fuel : Nat) (A : Bytes) (cap nf : Nat) (l : List Field), (A = [] ∨ Ends A) → NoSign A → (A ++ t).length < fuel →
    (A ++ t).length ≤ cap → scanLoop u fuel (A ++ t) cap nf = .ok l →
    ∃ l1 l2 l2', l = l1 ++ l2 ∧ R l2 l2' ∧ ∀ fuel' cap', (A ++ t').length < fuel' → (A ++ t').length ≤ cap' →
      scanLoop u fuel' (A ++ t') cap' nf = .ok (l1 ++ l2') := by
  intro fuel
  induction fuel with
  | zero => intro A cap nf l _ _ h; omega
  | succ n ih =>
    intro A cap nf l hA hn hf hcp h
    have spaces : ∀ X : Bytes, (∀ t : Bytes, (X ++ t).dropWhile isSpace = t.dropWhile isSpace) ∨ ∃ c' A', c' :: A' <:+ X ∧
        (∀ t, (X ++ t).dropWhile isSpace = c' :: (A' ++ t)) ∧ isSpace c' = false := by
      intro X
      induction X with
      | nil => left; simp
      | cons x X ih =>
        cases hx : isSpace x with
        | false => right; exact ⟨x, X, List.suffix_refl _, by simp [hx], hx⟩
        | true =>
          rcases ih with ih | ⟨c', A', k1, k2, k3⟩
          · left; intro t; simpa [List.dropWhile_cons, hx] using ih t
          · right; exact ⟨c', A', k1.trans (List.suffix_cons _ _), by intro t; simp [hx, ← k2], k3⟩
    rcases spaces A with hs | ⟨c, A', k1, k2, k3⟩
    · have e : ∀ (n : Nat) (t : Bytes) cap, scanLoop u (n + 1) (A ++ t) cap nf = scanLoop u (n + 1) t cap nf := by
        intro n t cap; rw [scanLoop, scanLoop, hs]
      rw [e] at h
      rw [List.length_append] at hf hcp
      obtain ⟨l', h1, h2⟩ := H (n + 1) cap nf l (by omega) (by omega) h
      refine ⟨[], l, l', rfl, h1, fun fuel' cap' q1 q2 => ?_⟩
      rw [List.length_append] at q1 q2
      cases fuel' with
      | zero => omega
      | succ m => rw [e]; exact h2 _ _ (by omega) (by omega)
    · have hA : Ends A := by
        rcases hA with rfl | hA
        · exact absurd (List.suffix_nil.1 k1) (by simp)
        · exact hA
      have hE := hA.suffix k1 (by simp)
      have hlen' : (c :: A').length ≤ A.length := k1.length_le
      rw [scanLoop, k2] at h
      simp only at h
      split at h
      · cases h
      · rename_i hnf
        split at h
        · rename_i hst
          split at h
          · cases h
          · rename_i hcap
            rw [Res.bind_eq_ok] at h
            obtain ⟨⟨f, rest⟩, h1, h⟩ := h
            obtain ⟨B, b1, b2, rfl⟩ := field_within (t := t) (show startB c = true from hst) hE (hn.suffix k1) h1
            have fa := field_append (show startB c = true from hst) hE (hn.suffix k1) t t' h1
            simp only at h
            split at h
            · cases h
            · rename_i hfl
              rw [Res.bind_eq_ok] at h
              obtain ⟨l', h2, h⟩ := h
              cases h
              have hlt : f.2.length + B.length ≤ A.length ∧ 0 < f.2.length := by
                rcases scanField_spec u (c := c) (A' ++ t) hst with e | ⟨f', rest', used, e, e2, e3, e4⟩
                · rw [e] at h1; cases h1
                · rw [e] at h1
                  cases h1
                  have := e3.length
                  have h5 : 0 < f.2.length := List.length_pos_iff.2 e4
                  have h6 := congrArg List.length e2
                  simp only [List.length_append, List.length_cons] at h6 hlen' ⊢
                  omega
              obtain ⟨l1, l2, l2', e, h3, h4⟩ := ih B _ _ _ (Or.inr (hE.suffix b1 b2)) ((hn.suffix k1).suffix b1) (by
                simp only [List.length_append] at hf ⊢; omega) (by simp only [List.length_append] at hcp ⊢; omega) h2
              refine ⟨f :: l1, l2, l2', by rw [e]; rfl, h3, fun fuel' cap' q1 q2 => ?_⟩
              simp only [List.length_append] at q1 q2
              cases fuel' with
              | zero => omega
              | succ m =>
                rw [scanLoop, k2]
                dsimp only
                rw [if_neg hnf, if_pos hst, if_neg (by omega), fa, Res.bind_ok]
                dsimp only
                rw [if_neg (by omega), h4 m (cap' - f.2.length) (by simp only [List.length_append]; omega)
                  (by simp only [List.length_append]; omega)]
                rfl
        · rename_i hst
          split at h
          · rename_i hp
            have hq : ∀ b, isSpace b = true → isPunct b = false := fun b h => by rcases space_cases h with rfl | rfl | rfl | rfl | rfl <;> rfl
            obtain ⟨B, b1, b2, b3⟩ := drop_within (q := isPunct) hq t (hE.tail k3)
            have d1 := (take_within hq t (hE.tail k3)).2.1
            have d2 := (take_within hq t' (hE.tail k3)).2.1
            rw [b3] at d1
            have e : (c :: (A' ++ t)).dropWhile isPunct = B ++ t := by rw [List.dropWhile_cons, if_pos hp, b3]
            have e' : (c :: (A' ++ t')).dropWhile isPunct = B ++ t' := by
              rw [List.dropWhile_cons, if_pos hp, d2, List.append_cancel_right d1]
            rw [e] at h
            have hb := b1.length_le
            simp only [List.length_append, List.length_cons] at hf hlen' hcp
            obtain ⟨l1, l2, l2', e0, h3, h4⟩ := ih B _ _ _ (Or.inr ((hE.tail k3).suffix b1 b2)) (((hn.suffix k1).suffix (List.suffix_cons _ _)).suffix b1) (by
              simp only [List.length_append]; omega) (by simp only [List.length_append]; omega) h
            refine ⟨l1, l2, l2', e0, h3, fun fuel' cap' q1 q2 => ?_⟩
            simp only [List.length_append] at q1 q2
            cases fuel' with
            | zero => omega
            | succ m =>
              rw [scanLoop, k2]
              dsimp only
              rw [if_neg hnf, if_neg hst, if_pos hp, e']
              exact h4 m cap' (by simp only [List.length_append]; omega) (by simp only [List.length_append]; omega)
          · cases h

/-- One field for one. -/
theorem scanLoop_oneFor {b b' : Nat} {r r' c : Bytes} {f f' : Field} (h1 : startB b = true) (h1' : startB b' = true)
    (h2 : scanField u b (b :: (r ++ c)) = .ok (f, c)) (h2' : scanField u b' (b' :: (r' ++ c)) = .ok (f', c))
    (hl : f.2.length ≤ (b :: r).length) (hl' : f'.2.length ≤ (b' :: r').length) :
    ∀ (fuel cap nf : Nat) (l : List Field), (b :: (r ++ c)).length < fuel → (b :: (r ++ c)).length ≤ cap →
      scanLoop u fuel (b :: (r ++ c)) cap nf = .ok l → ∃ l', (∃ l2, l = f :: l2 ∧ l' = f' :: l2) ∧
        ∀ fuel' cap', (b' :: (r' ++ c)).length < fuel' → (b' :: (r' ++ c)).length ≤ cap' → scanLoop u fuel' (b' :: (r' ++ c)) cap' nf = .ok l' := by
  intro fuel cap nf l hf hcp h
  simp only [List.length_cons, List.length_append] at hf hcp hl hl'
  cases fuel with
  | zero => omega
  | succ n =>
    have hs : isSpace b = false := startB_noSpace h1
    have hs' : isSpace b' = false := startB_noSpace h1'
    rw [scanLoop] at h
    simp only [List.dropWhile_cons_of_neg (show ¬ isSpace b = true by rw [hs]; decide)] at h
    split at h
    · cases h
    · rename_i hnf
      rw [if_pos (show (isDigit b || b = 46 || isAlpha b || b = 43 || b = 45) = true from h1), if_neg (by omega), h2, Res.bind_ok] at h
      dsimp only at h
      rw [if_neg (by omega), Res.bind_eq_ok] at h
      obtain ⟨l2, h3, h⟩ := h
      cases h
      refine ⟨f' :: l2, ⟨l2, rfl, rfl⟩, fun fuel' cap' q1 q2 => ?_⟩
      simp only [List.length_cons, List.length_append] at q1 q2
      cases fuel' with
      | zero => omega
      | succ m =>
        rw [scanLoop]
        simp only [List.dropWhile_cons_of_neg (show ¬ isSpace b' = true by rw [hs']; decide)]
        rw [if_neg hnf, if_pos (show (isDigit b' || b' = 46 || isAlpha b' || b' = 43 || b' = 45) = true from h1'), if_neg (by omega), h2', Res.bind_ok]
        dsimp only
        rw [if_neg (by omega), scanLoop_enough m c _ _ n (cap - f.2.length) (by omega) (by omega) (by omega) (by omega), h3]
        rfl

/-- The same field before them. -/
theorem scanLoop_sameFor {b : Nat} {r x x' : Bytes} {f : Field} {R : List Field → List Field → Prop} (h1 : startB b = true)
    (h2 : scanField u b (b :: (r ++ x)) = .ok (f, x)) (h2' : scanField u b (b :: (r ++ x')) = .ok (f, x')) (hl : f.2.length ≤ (b :: r).length)
    (H : ∀ (fuel cap nf : Nat) (l : List Field), x.length < fuel → x.length ≤ cap → scanLoop u fuel x cap nf = .ok l →
      ∃ l', R l l' ∧ ∀ fuel' cap', x'.length < fuel' → x'.length ≤ cap' → scanLoop u fuel' x' cap' nf = .ok l') :
    ∀ (fuel cap nf : Nat) (l : List Field), (b :: (r ++ x)).length < fuel → (b :: (r ++ x)).length ≤ cap →
      scanLoop u fuel (b :: (r ++ x)) cap nf = .ok l → ∃ l', (∃ l2 l2', l = f :: l2 ∧ l' = f :: l2' ∧ R l2 l2') ∧
        ∀ fuel' cap', (b :: (r ++ x')).length < fuel' → (b :: (r ++ x')).length ≤ cap' → scanLoop u fuel' (b :: (r ++ x')) cap' nf = .ok l' := by
  intro fuel cap nf l hf hcp h
  simp only [List.length_cons, List.length_append] at hf hcp hl
  cases fuel with
  | zero => omega
  | succ n =>
    have hs : isSpace b = false := startB_noSpace h1
    rw [scanLoop] at h
    simp only [List.dropWhile_cons_of_neg (show ¬ isSpace b = true by rw [hs]; decide)] at h
    split at h
    · cases h
    · rename_i hnf
      rw [if_pos (show (isDigit b || b = 46 || isAlpha b || b = 43 || b = 45) = true from h1), if_neg (by omega), h2, Res.bind_ok] at h
      dsimp only at h
      rw [if_neg (by omega), Res.bind_eq_ok] at h
      obtain ⟨l2, h3, h⟩ := h
      cases h
      obtain ⟨l2', k1, k2⟩ := H _ _ _ _ (by omega) (by omega) h3
      refine ⟨f :: l2', ⟨l2, l2', rfl, rfl, k1⟩, fun fuel' cap' q1 q2 => ?_⟩
      simp only [List.length_cons, List.length_append] at q1 q2
      cases fuel' with
      | zero => omega
      | succ m =>
        rw [scanLoop]
        simp only [List.dropWhile_cons_of_neg (show ¬ isSpace b = true by rw [hs]; decide)]
        rw [if_neg hnf, if_pos (show (isDigit b || b = 46 || isAlpha b || b = 43 || b = 45) = true from h1), if_neg (by omega), h2', Res.bind_ok]
        dsimp only
        rw [if_neg (by omega), k2 m _ (by omega) (by omega)]
        rfl

/-- A number before a letter. -/
theorem anyNumber_scan {n : Bytes} (hn : Number n) : ∃ b r k, n = b :: r ∧ startB b = true ∧
    ∀ x y, isAlpha x = true → scanField u b (b :: (r ++ x :: y)) = .ok ((k, n), x :: y) := by
  obtain ⟨sg, d, fr, hsg, nd, hd, hfr, rfl⟩ := hn
  obtain ⟨q, qs, rfl⟩ := List.exists_cons_of_ne_nil nd
  have hq := digits_isDigit hd q (by simp)
  have al : ∀ {x}, isAlpha x = true → isDigit x = false ∧ isSignedB x = false ∧ x ≠ 58 ∧ x ≠ 45 ∧ x ≠ 47 ∧ x ≠ 46 := by
    intro x hx
    rw [isAlpha_iff] at hx
    refine ⟨by rw [Bool.eq_false_iff, ne_eq, isDigit_iff]; omega, ?_, ?_⟩
    · rw [Bool.eq_false_iff]
      simp only [isSignedB, Bool.or_eq_true, isDigit_iff, decide_eq_true_eq, ne_eq]
      omega
    · omega
  rcases hsg with rfl | hsg
  · rcases hfr with rfl | ⟨ds, rfl, nds, hds⟩
    · refine ⟨q, qs, .number, by simp, startB_digit hq, fun x y hx => ?_⟩
      obtain ⟨a1, -, a3, a4, a5, a6⟩ := al hx
      rw [scanField, if_pos hq, scanDigit, ← List.cons_append, takeWhile_span (digits_isDigit hd) (Stops.cons a1), dropWhile_span (digits_isDigit hd) (Stops.cons a1)]
      simp [a3, a4, a5, a6]
    · refine ⟨q, qs ++ 46 :: ds, .number, by simp, startB_digit hq, fun x y hx => ?_⟩
      obtain ⟨a1, -, a3, a4, a5, a6⟩ := al hx
      have e : q :: (qs ++ 46 :: ds ++ x :: y) = (q :: qs) ++ (46 :: (ds ++ x :: y)) := by simp
      obtain ⟨z, zs, rfl⟩ := List.exists_cons_of_ne_nil nds
      have hz := digits_isDigit hds z (by simp)
      have sd : scanDelim 46 ((z :: zs) ++ x :: y) = (.number, 46 :: z :: zs, x :: y) := by
        rw [List.cons_append, scanDelim, if_pos hz, ← List.cons_append, takeWhile_span (digits_isDigit hds) (Stops.cons a1),
          dropWhile_span (digits_isDigit hds) (Stops.cons a1)]
        simp [a6]
      rw [scanField, if_pos hq, scanDigit, e, takeWhile_span (digits_isDigit hd) (Stops.cons (by decide)), dropWhile_span (digits_isDigit hd) (Stops.cons (by decide))]
      simp only
      rw [sd]
      simp
  · obtain ⟨g, rfl, hg⟩ : ∃ g, sg = [g] ∧ (g = 43 ∨ g = 45) := by
      rcases hsg with rfl | rfl
      · exact ⟨_, rfl, Or.inl rfl⟩
      · exact ⟨_, rfl, Or.inr rfl⟩
    refine ⟨g, (q :: qs) ++ fr, .tz, rfl, by rcases hg with rfl | rfl <;> decide, fun x y hx => ?_⟩
    obtain ⟨-, a2, -⟩ := al hx
    have hall : ∀ b ∈ q :: qs ++ fr, isSignedB b = true := by
      intro b hb
      have dig : ∀ b, isDigit b = true → isSignedB b = true := fun b h => by simp [isSignedB, h]
      rcases List.mem_append.1 hb with hb | hb
      · exact dig b (digits_isDigit hd b hb)
      · rcases hfr with rfl | ⟨ds, rfl, -, hds⟩
        · cases hb
        · rcases List.mem_cons.1 hb with rfl | hb
          · decide
          · exact dig b (digits_isDigit hds b hb)
    have hsp : isSpace q = false := digit_noSpace q hq
    rw [scanField, if_neg (by rcases hg with rfl | rfl <;> decide), if_neg (by rcases hg with rfl | rfl <;> decide),
      if_neg (by rcases hg with rfl | rfl <;> decide), scanSign]
    simp only [List.cons_append, List.dropWhile_cons_of_neg (show ¬ isSpace q = true by rw [hsp]; decide)]
    rw [if_pos hq, ← List.cons_append, ← List.cons_append, takeWhile_span hall (Stops.cons a2), dropWhile_span hall (Stops.cons a2)]
    rfl

/-- The fields of the two texts. -/
theorem scan_exchange {a n w w' c : Bytes} (ha : a = [] ∨ ∃ b, a.getLast? = some b ∧ White b) (hs : ∀ x ∈ words a, ¬ EndsInSign x)
    (hn : n = [] ∨ Number n) (hw : Letters w ∧ w ≠ []) (hw' : Letters w' ∧ w' ≠ []) (hc : c = [] ∨ ∃ b r, c = b :: r ∧ White b)
    (h1 : (a ++ (n ++ (w ++ c))).length ≤ 128) (h2 : (a ++ (n ++ (w' ++ c))).length ≤ 128) {l : List Field}
    (h : scan u (a ++ (n ++ (w ++ c))) = .ok l) :
    ∃ l1 l2, l = l1 ++ (.string, lower w) :: l2 ∧ scan u (a ++ (n ++ (w' ++ c))) = .ok (l1 ++ (.string, lower w') :: l2) := by
  have white : ∀ {b}, White b = true → isSpace b = true := by
    intro b hb
    unfold White at hb
    unfold isSpace
    simp only [Bool.or_eq_true, decide_eq_true_eq] at hb ⊢
    tauto
  have hA : a = [] ∨ Ends a := by
    rcases ha with h | ⟨b, hb, hb'⟩
    · exact Or.inl h
    · obtain ⟨x, rfl⟩ := List.getLast?_eq_some_iff.1 hb
      exact Or.inr ⟨x, b, rfl, white hb'⟩
  have hC : Over c := by
    rcases hc with h | ⟨b, r, rfl, hb⟩
    · exact Or.inl h
    · exact Or.inr ⟨b, r, rfl, white hb⟩
  obtain ⟨b, r, rfl, k1, k2⟩ := word_scan (u := u) hw.1 hw.2 hC
  obtain ⟨b', r', rfl, k1', k2'⟩ := word_scan (u := u) hw'.1 hw'.2 hC
  have H := scanLoop_oneFor (u := u) (c := c) k1 k1' k2 k2' (by simp [lower]) (by simp [lower])
  have ne : ∀ x : Bytes, x ≠ [] → (a ++ (n ++ (x ++ c))).isEmpty = false := by
    intro x hx; cases x <;> simp_all
  unfold scan at h ⊢
  rw [ne _ (by simp)] at h
  rw [ne _ (by simp)]
  simp only [Bool.false_eq_true, if_false] at h ⊢
  rcases hn with rfl | hn
  · obtain ⟨l1, l2, l2', rfl, ⟨m, rfl, rfl⟩, q⟩ := scanLoop_exchange H _ a _ _ _ hA (noSign_of hs) (Nat.lt_succ_self _) h1 h
    exact ⟨l1, m, rfl, q _ _ (Nat.lt_succ_self _) h2⟩
  · obtain ⟨x, xs, k, rfl, e1, e2⟩ := anyNumber_scan (u := u) hn
    have H2 := scanLoop_sameFor (u := u) (r := xs) e1 (e2 b (r ++ c) (hw.1 b (by simp))) (e2 b' (r' ++ c) (hw'.1 b' (by simp))) (Nat.le_refl _) H
    obtain ⟨l1, l2, l2', rfl, ⟨m, m', rfl, rfl, m2, rfl, rfl⟩, q⟩ := scanLoop_exchange H2 _ a _ _ _ hA (noSign_of hs) (Nat.lt_succ_self _) h1 h
    exact ⟨l1 ++ [(k, x :: xs)], m2, by simp, (q _ _ (Nat.lt_succ_self _) h2).trans (by simp)⟩

/-- Within the work area a text is split or refused. -/
theorem scan_orInvalid {s : Bytes} (hs : s ≠ []) (h : s.length ≤ 128) : scan u s = .err .invalid ∨ ∃ l, scan u s = .ok l := by
  unfold scan
  rw [if_neg (by simpa using hs)]
  rcases scanLoop_spec u _ s 128 0 (Nat.lt_succ_self _) h with e | ⟨l, e, -⟩
  · exact Or.inl e
  · exact Or.inr ⟨l, e⟩

/-- What the two texts are split into. -/
def FieldsAlike (t : List DateToken) (r r' : Res (List Field)) : Prop :=
  (r = .err .invalid ∧ r' = .err .invalid) ∨ ∃ l1 l2 x x', r = .ok (l1 ++ (.string, x) :: l2) ∧ r' = .ok (l1 ++ (.string, x') :: l2) ∧
    tokenResult (lookupIn t x) = tokenResult (lookupIn t x') ∧ (∃ b y, x = b :: y ∧ isAlpha b = true) ∧ ∃ b y, x' = b :: y ∧ isAlpha b = true

theorem exchanged_fields {t : List DateToken} {R : Bytes → Bytes → Prop} (hR : ∀ w w', R w w' → (Letters w ∧ w ≠ []) ∧ (Letters w' ∧ w' ≠ []) ∧
      tokenResult (lookupIn t (lower w)) = tokenResult (lookupIn t (lower w'))) {s s' : Bytes} (h : WordExchanged R s s') (h1 : s.length ≤ 128) (h2 : s'.length ≤ 128) :
    FieldsAlike t (scan u s) (scan u s') := by
  obtain ⟨a, n, w, w', c, k1, k2, k3, k4, k5, rfl, rfl⟩ := h
  obtain ⟨w1, w2, w3⟩ := hR w w' k4
  have low : ∀ {w : Bytes}, Letters w ∧ w ≠ [] → ∃ b y, lower w = b :: y ∧ isAlpha b = true := by
    rintro w ⟨q1, q2⟩
    obtain ⟨b, y, rfl⟩ := List.exists_cons_of_ne_nil q2
    refine ⟨lowerB b, lower y, rfl, ?_⟩
    have := q1 b (by simp)
    rw [isAlpha_iff] at this ⊢
    rw [lowerB_letter]
    unfold smallLetter
    split <;> omega
  have ne : ∀ {w : Bytes}, w ≠ [] → a ++ (n ++ (w ++ c)) ≠ [] := by intro w hw; cases w <;> simp_all
  rcases scan_orInvalid (u := u) (ne w1.2) h1 with e1 | ⟨l, e1⟩
  · rcases scan_orInvalid (u := u) (ne w2.2) h2 with e2 | ⟨l', e2⟩
    · exact Or.inl ⟨e1, e2⟩
    · obtain ⟨l1, l2, rfl, e3⟩ := scan_exchange k1 k2 k3 w2 w1 k5 h2 h1 e2
      rw [e1] at e3; cases e3
  · obtain ⟨l1, l2, rfl, e2⟩ := scan_exchange k1 k2 k3 w1 w2 k5 h1 h2 e1
    exact Or.inr ⟨l1, l2, _, _, e1, e2, w3, low w1, low w2⟩

/-! ## The decoders -/

theorem look_date {x x' : Bytes} (h : tokenResult (lookupIn dateTable x) = tokenResult (lookupIn dateTable x')) (i : Nat) {σ : Type} :
    (lookDate plainLook i x : St (σ × Unit) (TokenType × Int)) = lookDate plainLook i x' := by
  funext s
  unfold lookDate plainLook
  simp only [searchDate_eq, h]

theorem look_delta {x x' : Bytes} (h : tokenResult (lookupIn deltaTable x) = tokenResult (lookupIn deltaTable x')) (i : Nat) {σ : Type} :
    (lookDelta plainLook i x : St (σ × Unit) (TokenType × Int)) = lookDelta plainLook i x' := by
  funext s
  unfold lookDelta plainLook
  simp only [searchDelta_eq, h]

variable {p : Profile} {order : DateOrder}

theorem dateTimeLoop_exchange {x x' : Bytes} (h : tokenResult (lookupIn dateTable x) = tokenResult (lookupIn dateTable x')) {ft : List TokenField} {l2 : List Field} :
    ∀ (l1 : List Field) (i : Nat), dateTimeLoop p plainLook order ft (l1 ++ (.string, x) :: l2) i = dateTimeLoop p plainLook order ft (l1 ++ (.string, x') :: l2) i := by
  intro l1
  induction l1 with
  | nil =>
    intro i
    rw [List.nil_append, List.nil_append, dateTimeLoop, dateTimeLoop]
    unfold dateTimeField wordToken
    dsimp only
    rw [look_date h]
  | cons f l1 ih =>
    intro i
    rw [List.cons_append, List.cons_append, dateTimeLoop, dateTimeLoop, ih]

theorem timeOnlyLoop_exchange {x x' : Bytes} (h : tokenResult (lookupIn dateTable x) = tokenResult (lookupIn dateTable x')) {ft : List TokenField} {l2 : List Field} :
    ∀ (l1 : List Field) (i : Nat), timeOnlyLoop p plainLook order ft (l1 ++ (.string, x) :: l2) i = timeOnlyLoop p plainLook order ft (l1 ++ (.string, x') :: l2) i := by
  intro l1
  induction l1 with
  | nil =>
    intro i
    rw [List.nil_append, List.nil_append, timeOnlyLoop, timeOnlyLoop]
    unfold timeOnlyField wordTokenT
    dsimp only
    rw [look_date h]
  | cons f l1 ih =>
    intro i
    rw [List.cons_append, List.cons_append, timeOnlyLoop, timeOnlyLoop, ih]

theorem decode_exchange {x x' : Bytes} (h : tokenResult (lookupIn dateTable x) = tokenResult (lookupIn dateTable x')) (l1 l2 : List Field) :
    decodeDateTime p plainLook order (l1 ++ (.string, x) :: l2) = decodeDateTime p plainLook order (l1 ++ (.string, x') :: l2) ∧
    decodeTimeOnly p plainLook order (l1 ++ (.string, x) :: l2) = decodeTimeOnly p plainLook order (l1 ++ (.string, x') :: l2) := by
  have e : (l1 ++ (.string, x) :: l2).map Prod.fst = (l1 ++ (TokenField.string, x') :: l2).map Prod.fst := by simp
  unfold decodeDateTime decodeTimeOnly
  rw [e]
  exact ⟨by rw [dateTimeLoop_exchange h], by rw [timeOnlyLoop_exchange h]⟩

end Pg
