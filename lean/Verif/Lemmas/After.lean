import Verif.Lemmas.DayClock
import Verif.Props.Scan

/-!
# Lemmas: a text with something behind it
-/

namespace Pg
open Spec

variable {p : Profile} {order : DateOrder} {ftypes : List TokenField} {i : Nat} {u : TokenField}

theorem scanLoop_after : ∀ (m n : Nat) (A t : Bytes) (cap nf : Nat) (l1 : List Field),
    (A = [] ∨ Ends A) → NoSign A → (A ++ t).length < n → A.length < m → scanLoop u m A cap nf = .ok l1 →
    ∃ n', t.length < n' ∧ scanLoop u n (A ++ t) cap nf =
      (scanLoop u n' t (cap - (fieldBytes l1).length) (nf + l1.length) >>= fun l2 => .ok (l1 ++ l2)) := by
  intro m
  induction m with
  | zero => intro n A t cap nf l1 _ _ _ h; omega
  | succ m ih =>
    intro n A t cap nf l1 hA hn hf hm h
    cases n with
    | zero => omega
    | succ n =>
    have spaces : ∀ X : Bytes, (∀ t : Bytes, (X ++ t).dropWhile isSpace = t.dropWhile isSpace) ∨ ∃ c' A', c' :: A' <:+ X ∧
        (∀ t, (X ++ t).dropWhile isSpace = c' :: (A' ++ t)) ∧ isSpace c' = false := by
      intro X
      induction X with
      | nil => left; simp
      | cons x X ih =>
        cases hx : isSpace x with
        | false => right; exact ⟨x, X, List.suffix_refl _, by simp [hx], hx⟩
        | true =>
          rcases ih with ih | ⟨c', A', k1, k2, k3⟩
          · left; intro t; simpa [List.dropWhile_cons, hx] using ih t
          · right; exact ⟨c', A', k1.trans (List.suffix_cons _ _), by intro t; simp [hx, ← k2], k3⟩
    rcases spaces A with hs | ⟨c, A', k1, k2, k3⟩
    · have e0 := hs []
      rw [List.append_nil] at e0
      rw [scanLoop, e0] at h
      cases h
      refine ⟨n + 1, by rw [List.length_append] at hf; omega, ?_⟩
      have : scanLoop u (n + 1) (A ++ t) cap nf = scanLoop u (n + 1) t cap nf := by
        rw [scanLoop, scanLoop, hs]
      rw [this]
      simp only [fieldBytes, List.flatMap_nil, List.length_nil, Nat.sub_zero, Nat.add_zero, List.nil_append]
      cases scanLoop u (n + 1) t cap nf <;> rfl
    · have hA : Ends A := by
        rcases hA with rfl | hA
        · exact absurd (List.suffix_nil.1 k1) (by simp)
        · exact hA
      have hE := hA.suffix k1 (by simp)
      have hlen' : (c :: A').length ≤ A.length := k1.length_le
      have k2' := k2 []
      simp only [List.append_nil] at k2'
      rw [scanLoop, k2'] at h
      rw [scanLoop, k2]
      simp only at h ⊢
      split at h
      · cases h
      · rename_i hnf
        rw [if_neg hnf]
        split at h
        · rename_i hst
          rw [if_pos hst]
          split at h
          · cases h
          · rename_i hcap
            rw [if_neg hcap]
            rw [Res.bind_eq_ok] at h
            obtain ⟨⟨f, rest⟩, h1, h⟩ := h
            have h1' : scanField u c (c :: (A' ++ [])) = .ok (f, rest) := by rw [List.append_nil]; exact h1
            obtain ⟨B, b1, b2, b3⟩ := field_within (t := []) (show startB c = true from hst) hE (hn.suffix k1) h1'
            rw [List.append_nil] at b3
            subst b3
            have h2 := field_append (show startB c = true from hst) hE (hn.suffix k1) [] t (B := rest) (by rw [List.append_nil, List.append_nil]; exact h1)
            rw [h2, Res.bind_ok]
            simp only at h ⊢
            split at h
            · cases h
            · rename_i hfl
              rw [if_neg hfl]
              rw [Res.bind_eq_ok] at h
              obtain ⟨l', h2, h⟩ := h
              cases h
              have hB : rest.length < (c :: A').length := by
                obtain ⟨⟨used, q1, q2, q3⟩, -⟩ := field_kind (u := u) hst h1
                have := congrArg List.length q1
                have := List.length_pos_iff.2 q3
                simp only [List.length_append] at *
                omega
              obtain ⟨n', q1, q2⟩ := ih n rest t _ _ _ (Or.inr (hE.suffix b1 b2)) ((hn.suffix k1).suffix b1)
                (by rw [List.length_append] at hf ⊢; omega) (by omega) h2
              refine ⟨n', q1, ?_⟩
              rw [q2, fieldBytes_cons, List.length_append, List.length_cons, Nat.sub_sub, show nf + 1 + l'.length = nf + (l'.length + 1) by omega]
              cases scanLoop u n' t (cap - (f.2.length + (fieldBytes l').length)) (nf + (l'.length + 1)) <;> rfl
        · rename_i hst
          rw [if_neg hst]
          split at h
          · rename_i hp
            rw [if_pos hp]
            have hq : ∀ b, isSpace b = true → isPunct b = false := fun b h => by rcases space_cases h with rfl | rfl | rfl | rfl | rfl <;> rfl
            obtain ⟨B, b1, b2, b3⟩ := drop_within (q := isPunct) hq t (hE.tail k3)
            have d1 := (take_within hq t (hE.tail k3)).2.1
            rw [b3] at d1
            have e : (c :: (A' ++ t)).dropWhile isPunct = B ++ t := by rw [List.dropWhile_cons, if_pos hp, b3]
            have e' : (c :: A').dropWhile isPunct = B := by
              rw [List.dropWhile_cons, if_pos hp, ← List.append_cancel_right d1]
            rw [e'] at h
            rw [e]
            have hb := b1.length_le
            simp only [List.length_cons] at hlen'
            exact ih n B t _ _ _ (Or.inr ((hE.tail k3).suffix b1 b2)) (((hn.suffix k1).suffix (List.suffix_cons _ _)).suffix b1)
              (by rw [List.length_append] at hf ⊢; omega) (by omega) h
          · cases h

/-- The fields of a text with another one behind it. -/
theorem scan_split {s t : Bytes} {l1 : List Field} {b : Nat} (hb : s.getLast? = some b) (hsp : isSpace b = false) (hsg : b ≠ 43 ∧ b ≠ 45 ∧ b ≠ 46)
    (h1 : scan u s = .ok l1) : ∃ n, t.length < n ∧ scan u (s ++ 32 :: t) =
      (scanLoop u n t (128 - (fieldBytes l1).length) l1.length >>= fun l2 => .ok (l1 ++ l2)) := by
  have hs0 : s ≠ [] := by rintro rfl; cases hb
  obtain ⟨x, rfl⟩ : ∃ x, s = x ++ [b] := by
    obtain ⟨x, e⟩ := List.getLast?_eq_some_iff.1 hb
    exact ⟨x, e⟩
  have hw : scan u (x ++ [b]) = scan u (x ++ [b] ++ [32]) := by
    refine scan_words u hs0 (by simp) (words_blank _).symm ?_
    unfold EndsInDot
    rw [hb]
    simp only [List.getLast?_append, List.getLast?_singleton, Option.some_or, Option.some.injEq]
    omega
  rw [hw] at h1
  rw [show x ++ [b] ++ 32 :: t = x ++ [b] ++ [32] ++ t by simp]
  unfold scan at h1 ⊢
  rw [if_neg (by simp)] at h1 ⊢
  have hn : NoSign (x ++ [b] ++ [32]) := by
    intro y c z e hz
    rcases List.eq_nil_or_concat z with rfl | ⟨z, d, rfl⟩
    · have := List.append_inj_right' e rfl
      simp only [List.cons.injEq, and_true] at this
      subst this; decide
    · rw [show y ++ c :: (z.concat d) = (y ++ c :: z) ++ [d] by simp] at e
      have e' := List.append_inj_left' e rfl
      rcases List.eq_nil_or_concat z with rfl | ⟨z, f, rfl⟩
      · have := List.append_inj_right' e' rfl
        simp only [List.cons.injEq, and_true] at this
        subst this
        exact ⟨hsg.1, hsg.2.1⟩
      · rw [show y ++ c :: (z.concat f) = (y ++ c :: z) ++ [f] by simp] at e'
        have := List.append_inj_right' e' rfl
        simp only [List.cons.injEq, and_true] at this
        subst this
        rw [hz b (by simp)] at hsp
        cases hsp
  obtain ⟨n', q1, q2⟩ := scanLoop_after _ _ _ t _ _ _ (Or.inr ⟨x ++ [b], 32, rfl, rfl⟩) hn (Nat.lt_succ_self _) (Nat.lt_succ_self _) h1
  exact ⟨n', q1, by rw [q2, Nat.zero_add]⟩

theorem scan_after {s t : Bytes} {l1 l2 : List Field} {b : Nat} (hb : s.getLast? = some b) (hsp : isSpace b = false) (hsg : b ≠ 43 ∧ b ≠ 45 ∧ b ≠ 46)
    (h1 : scan u s = .ok l1) (h2 : ∀ n, t.length < n → scanLoop u n t (128 - (fieldBytes l1).length) l1.length = .ok l2) :
    scan u (s ++ 32 :: t) = .ok (l1 ++ l2) := by
  obtain ⟨n, q1, q2⟩ := scan_split (t := t) hb hsp hsg h1
  rw [q2, h2 n q1]
  rfl

/-- The fields of a text begin with those of the text cut off at a blank. -/
theorem scan_prefix {s t : Bytes} {l1 l : List Field} {b : Nat} (hb : s.getLast? = some b) (hsp : isSpace b = false) (hsg : b ≠ 43 ∧ b ≠ 45 ∧ b ≠ 46)
    (h1 : scan u s = .ok l1) (h : scan u (s ++ 32 :: t) = .ok l) : ∃ l2, l = l1 ++ l2 := by
  obtain ⟨n, q1, q2⟩ := scan_split (t := t) hb hsp hsg h1
  rw [q2, Res.bind_eq_ok] at h
  obtain ⟨l2, -, h⟩ := h
  cases h
  exact ⟨l2, rfl⟩

/-- The fields of a text with a word of letters behind it. -/
theorem scan_wordAfter {s w : Bytes} {l : List Field} {b : Nat} (hb : s.getLast? = some b) (hsp : isSpace b = false) (hsg : b ≠ 43 ∧ b ≠ 45 ∧ b ≠ 46)
    (hw : Letters w) (nw : w ≠ []) (h : scan u s = .ok l) (h1 : (fieldBytes l).length + w.length ≤ 128) (h2 : l.length < 25) :
    scan u (s ++ 32 :: w) = .ok (l ++ [(.string, lower w)]) := by
  refine scan_after hb hsp hsg h fun n hn => ?_
  have hp := List.length_pos_iff.2 nw
  cases n with
  | zero => omega
  | succ n =>
  obtain ⟨c, r, rfl, q1, q2⟩ := word_scan (u := u) hw nw (Or.inl rfl)
  rw [List.append_nil] at q2
  rw [scanLoop]
  have hs : isSpace c = false := startB_noSpace q1
  simp only [List.dropWhile_cons_of_neg (show ¬ isSpace c = true by rw [hs]; decide)]
  rw [if_neg (by omega), if_pos (show (isDigit c || c = 46 || isAlpha c || c = 43 || c = 45) = true from q1), if_neg (by omega), q2, Res.bind_ok]
  simp only
  rw [if_neg (by simp only [lower, List.length_map]; omega)]
  cases n with
  | zero => simp only [List.length_cons] at hn; omega
  | succ n => rfl

/-- A text of few visible bytes has few fields. -/
theorem scan_few {s : Bytes} {l : List Field} (h : scan u s = .ok l) (hs : s.length ≤ 128) :
    l.length ≤ (noSpace s).length ∧ (fieldBytes l).length ≤ (noSpace s).length := by
  obtain ⟨-, k1, k2, -⟩ := (Props.C43_fields_partial u s hs).2 l h
  have k3 : (fieldBytes l).length ≤ (noSpace s).length := by
    have := k2.length_le
    simpa [fieldBytes, noSpace] using this
  refine ⟨?_, k3⟩
  have : l.length ≤ (fieldBytes l).length := by
    clear k2 k3 h
    induction l with
    | nil => simp
    | cons f l ih =>
      rw [fieldBytes_cons, List.length_append, List.length_cons]
      have := ih fun g hg => k1 g (List.mem_cons_of_mem _ hg)
      have := List.length_pos_iff.2 (k1 f (List.mem_cons_self ..))
      omega
  omega

/-- The fields of a date with another one behind them. -/
theorem loop_after {l : List Field} {g : Field} {s s1 : Dec × Unit} {a : Unit} (h : dateTimeLoop p plainLook order (l.map Prod.fst) l 0 s = (.ok a, s1)) :
    dateTimeLoop p plainLook order ((l ++ [g]).map Prod.fst) (l ++ [g]) 0 s =
      dateTimeField p plainLook order ((l ++ [g]).map Prod.fst) l.length g s1 := by
  have h' := loop_goesOn (ft := (l ++ [g]).map Prod.fst) l 0 (fun j _ _ => types_goesOn l g j) h
  have cat : ∀ (ft : List TokenField) (l l' : List Field) (i : Nat) (s : Dec × Unit), dateTimeLoop p plainLook order ft (l ++ l') i s =
      (do dateTimeLoop p plainLook order ft l i; dateTimeLoop p plainLook order ft l' (i + l.length) : St (Dec × Unit) Unit) s := by
    intro ft l
    induction l with
    | nil => intro l' i s; rfl
    | cons f l ih =>
      intro l' i s
      rw [List.cons_append, dateTimeLoop, dateTimeLoop]
      simp only [St.bind_run]
      rcases dateTimeField p plainLook order ft i f s with ⟨_ | _ | _, s'⟩
      · simp only
        rw [ih, St.bind_run, List.length_cons, show i + 1 + l.length = i + (l.length + 1) by omega]
      · rfl
      · rfl
  rw [cat, St.bind_run, h']
  simp only [Nat.zero_add]
  rw [dateTimeLoop, St.bind_run]
  rcases dateTimeField p plainLook order ((l ++ [g]).map Prod.fst) l.length g s1 with ⟨⟨⟩ | _ | _, s'⟩ <;> rfl

end Pg
