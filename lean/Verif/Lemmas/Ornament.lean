import Verif.Lemmas.ClockValue
import Verif.Lemmas.ConcatText
import Verif.Lemmas.Era

/-!
# Lemmas: a word at the end of a text
-/

namespace Pg
open Spec

variable {p : Profile} {order : DateOrder} {ftypes : List TokenField} {i : Nat} {u : TokenField}

/-! ## The fields of the text before the word -/

theorem scanLoop_before : ∀ (n m : Nat) (A : Bytes) {t : Bytes} (cap nf : Nat) (l : List Field),
    (A = [] ∨ Ends A) → NoSign A → (A ++ t).length < n → A.length < m → scanLoop u n (A ++ t) cap nf = .ok l →
    ∃ l1, scanLoop u m A cap nf = .ok l1 := by
  intro n
  induction n with
  | zero => intro m A t cap nf l _ _ h; omega
  | succ n ih =>
    intro m A t cap nf l hA hn hf hm h
    cases m with
    | zero => omega
    | succ m =>
    have spaces : ∀ X : Bytes, (∀ t : Bytes, (X ++ t).dropWhile isSpace = t.dropWhile isSpace) ∨ ∃ c' A', c' :: A' <:+ X ∧
        (∀ t, (X ++ t).dropWhile isSpace = c' :: (A' ++ t)) ∧ isSpace c' = false := by
      intro X
      induction X with
      | nil => left; simp
      | cons x X ih =>
        cases hx : isSpace x with
        | false => right; exact ⟨x, X, List.suffix_refl _, by simp [hx], hx⟩
        | true =>
          rcases ih with ih | ⟨c', A', k1, k2, k3⟩
          · left; intro t; simpa [List.dropWhile_cons, hx] using ih t
          · right; exact ⟨c', A', k1.trans (List.suffix_cons _ _), by intro t; simp [hx, ← k2], k3⟩
    rcases spaces A with hs | ⟨c, A', k1, k2, k3⟩
    · have e0 := hs []
      rw [List.append_nil] at e0
      rw [scanLoop, e0]
      exact ⟨[], rfl⟩
    · have hA : Ends A := by
        rcases hA with rfl | hA
        · exact absurd (List.suffix_nil.1 k1) (by simp)
        · exact hA
      have hE := hA.suffix k1 (by simp)
      have hlen' : (c :: A').length ≤ A.length := k1.length_le
      have k2' := k2 []
      simp only [List.append_nil] at k2'
      rw [scanLoop, k2] at h
      rw [scanLoop, k2']
      simp only at h ⊢
      split at h
      · cases h
      · rename_i hnf
        rw [if_neg hnf]
        split at h
        · rename_i hst
          rw [if_pos hst]
          split at h
          · cases h
          · rename_i hcap
            rw [if_neg hcap]
            rw [Res.bind_eq_ok] at h
            obtain ⟨⟨f, rest⟩, h1, h⟩ := h
            obtain ⟨B, b1, b2, rfl⟩ := field_within (t := t) (show startB c = true from hst) hE (hn.suffix k1) h1
            have h1' := field_append (show startB c = true from hst) hE (hn.suffix k1) t [] h1
            simp only [List.append_nil] at h1'
            rw [h1', Res.bind_ok]
            simp only at h ⊢
            split at h
            · cases h
            · rename_i hfl
              rw [if_neg hfl]
              rw [Res.bind_eq_ok] at h
              obtain ⟨l', h2, h⟩ := h
              have hB : B.length < (c :: A').length := by
                obtain ⟨⟨used, q1, q2, q3⟩, -⟩ := field_kind (u := u) hst h1'
                have := congrArg List.length q1
                have := List.length_pos_iff.2 q3
                simp only [List.length_append] at *
                omega
              obtain ⟨l1, q⟩ := ih m B _ _ _ (Or.inr (hE.suffix b1 b2)) ((hn.suffix k1).suffix b1)
                (by rw [List.length_append] at hf ⊢; omega) (by omega) h2
              exact ⟨f :: l1, by rw [q]; rfl⟩
        · rename_i hst
          rw [if_neg hst]
          split at h
          · rename_i hp
            rw [if_pos hp]
            have hq : ∀ b, isSpace b = true → isPunct b = false := fun b h => by rcases space_cases h with rfl | rfl | rfl | rfl | rfl <;> rfl
            obtain ⟨B, b1, b2, b3⟩ := drop_within (q := isPunct) hq t (hE.tail k3)
            have d1 := (take_within hq t (hE.tail k3)).2.1
            rw [b3] at d1
            have e : (c :: (A' ++ t)).dropWhile isPunct = B ++ t := by rw [List.dropWhile_cons, if_pos hp, b3]
            have e' : (c :: A').dropWhile isPunct = B := by
              rw [List.dropWhile_cons, if_pos hp, ← List.append_cancel_right d1]
            rw [e] at h
            rw [e']
            have hb := b1.length_le
            simp only [List.length_cons] at hlen'
            exact ih m B _ _ _ (Or.inr ((hE.tail k3).suffix b1 b2)) (((hn.suffix k1).suffix (List.suffix_cons _ _)).suffix b1)
              (by rw [List.length_append] at hf ⊢; omega) (by omega) h
          · cases h

/-- A text that can be split into fields with a word behind it can be split without it. -/
theorem scan_shorter {s t : Bytes} {l : List Field} {b : Nat} (hb : s.getLast? = some b) (hsp : isSpace b = false) (hsg : b ≠ 43 ∧ b ≠ 45 ∧ b ≠ 46)
    (h : scan u (s ++ 32 :: t) = .ok l) : ∃ l1, scan u s = .ok l1 := by
  have hs0 : s ≠ [] := by rintro rfl; cases hb
  obtain ⟨x, rfl⟩ : ∃ x, s = x ++ [b] := by
    obtain ⟨x, e⟩ := List.getLast?_eq_some_iff.1 hb
    exact ⟨x, e⟩
  have hw : scan u (x ++ [b]) = scan u (x ++ [b] ++ [32]) := by
    refine scan_words u hs0 (by simp) (words_blank _).symm ?_
    unfold EndsInDot
    rw [hb]
    simp only [List.getLast?_append, List.getLast?_singleton, Option.some_or, Option.some.injEq]
    omega
  rw [hw]
  rw [show x ++ [b] ++ 32 :: t = x ++ [b] ++ [32] ++ t by simp] at h
  unfold scan at h ⊢
  rw [if_neg (by simp)] at h ⊢
  have hn : NoSign (x ++ [b] ++ [32]) := by
    intro y c z e hz
    rcases List.eq_nil_or_concat z with rfl | ⟨z, d, rfl⟩
    · have := List.append_inj_right' e rfl
      simp only [List.cons.injEq, and_true] at this
      subst this; decide
    · rw [show y ++ c :: (z.concat d) = (y ++ c :: z) ++ [d] by simp] at e
      have e' := List.append_inj_left' e rfl
      rcases List.eq_nil_or_concat z with rfl | ⟨z, f, rfl⟩
      · have := List.append_inj_right' e' rfl
        simp only [List.cons.injEq, and_true] at this
        subst this
        exact ⟨hsg.1, hsg.2.1⟩
      · rw [show y ++ c :: (z.concat f) = (y ++ c :: z) ++ [f] by simp] at e'
        have := List.append_inj_right' e' rfl
        simp only [List.cons.injEq, and_true] at this
        subst this
        rw [hz b (by simp)] at hsp
        cases hsp
  exact scanLoop_before _ _ _ _ _ _ (Or.inr ⟨x ++ [b], 32, rfl, rfl⟩) hn (Nat.lt_succ_self _) (Nat.lt_succ_self _) h

/-- The fields of a text with a word of letters behind it. -/
theorem scan_more {s w : Bytes} {l : List Field} {b : Nat} (hb : s.getLast? = some b) (hsp : isSpace b = false) (hsg : b ≠ 43 ∧ b ≠ 45 ∧ b ≠ 46)
    (hw : Letters w) (nw : w ≠ []) (hlen : w.length ≤ 128) (h : scan u (s ++ 32 :: w) = .ok l) : ∃ l1, scan u s = .ok l1 ∧ l = l1 ++ [(.string, lower w)] := by
  obtain ⟨l1, h1⟩ := scan_shorter hb hsp hsg h
  have h2 : scan u w = .ok [(.string, lower w)] := by
    obtain ⟨c, r, rfl, q1, q2⟩ := word_scan (u := u) hw nw (Or.inl rfl)
    rw [List.append_nil] at q2
    unfold scan
    rw [if_neg (by simp), scanLoop]
    have hs : isSpace c = false := startB_noSpace q1
    simp only [List.dropWhile_cons_of_neg (show ¬ isSpace c = true by rw [hs]; decide)]
    rw [if_neg (by decide), if_pos (show (isDigit c || c = 46 || isAlpha c || c = 43 || c = 45) = true from q1), if_neg (by decide), q2, Res.bind_ok]
    simp only
    rw [if_neg (by simpa [lower] using hlen)]
    rfl
  exact ⟨l1, h1, scan_cat hb hsp hsg h h1 h2⟩

/-! ## The fields before the word -/

theorem bind_ran {σ α β : Type} {m : St σ α} {k : α → St σ β} {s s' : σ} {b : β} (h : (m >>= k) s = (.ok b, s')) :
    ∃ a s1, m s = (.ok a, s1) ∧ k a s1 = (.ok b, s') := by
  rw [St.bind_run] at h
  rcases hm : m s with ⟨r, s1⟩
  rw [hm] at h
  cases r with
  | ok a => exact ⟨a, s1, rfl, h⟩
  | err e => cases h
  | panic => cases h

theorem loop_before : ∀ (l l' : List Field) (i : Nat) {s s' : Dec × Unit} {a : Unit}, dateTimeLoop p plainLook order ftypes (l ++ l') i s = (.ok a, s') →
    ∃ s1, dateTimeLoop p plainLook order ftypes l i s = (.ok (), s1) ∧ dateTimeLoop p plainLook order ftypes l' (i + l.length) s1 = (.ok a, s') := by
  intro l
  induction l with
  | nil => intro l' i s s' a h; exact ⟨s, rfl, h⟩
  | cons f l ih =>
    intro l' i s s' a h
    rw [List.cons_append, dateTimeLoop] at h
    obtain ⟨x, s1, h1, h2⟩ := bind_ran h
    obtain ⟨s2, h3, h4⟩ := ih _ _ h2
    refine ⟨s2, ?_, ?_⟩
    · rw [dateTimeLoop, St.bind_run, h1]; exact h3
    · rw [List.length_cons, show i + (l.length + 1) = i + 1 + l.length by omega]; exact h4

theorem loopT_before : ∀ (l l' : List Field) (i : Nat) {s s' : Dec × Unit} {a : Unit}, timeOnlyLoop p plainLook order ftypes (l ++ l') i s = (.ok a, s') →
    ∃ s1, timeOnlyLoop p plainLook order ftypes l i s = (.ok (), s1) ∧ timeOnlyLoop p plainLook order ftypes l' (i + l.length) s1 = (.ok a, s') := by
  intro l
  induction l with
  | nil => intro l' i s s' a h; exact ⟨s, rfl, h⟩
  | cons f l ih =>
    intro l' i s s' a h
    rw [List.cons_append, timeOnlyLoop] at h
    obtain ⟨x, s1, h1, h2⟩ := bind_ran h
    obtain ⟨s2, h3, h4⟩ := ih _ _ h2
    refine ⟨s2, ?_, ?_⟩
    · rw [timeOnlyLoop, St.bind_run, h1]; exact h3
    · rw [List.length_cons, show i + (l.length + 1) = i + 1 + l.length by omega]; exact h4

theorem field_types {ft : List TokenField} {f : Field} {s s' : Dec × Unit} {a : Unit}
    (hi : ft[i + 1]? = ftypes[i + 1]? ∨ ft[i + 1]? = some .string)
    (h : dateTimeField p plainLook order ft i f s = (.ok a, s')) : dateTimeField p plainLook order ftypes i f s = (.ok a, s') := by
  rcases hi with hi | hi
  · have e : dateTimeField p plainLook order ft i f = dateTimeField p plainLook order ftypes i f := by
      have : ∀ ty v, wordAction ft i ty v = wordAction ftypes i ty v := by
        intro ty v
        unfold wordAction isoTimeWord
        rw [hi]
      unfold dateTimeField wordToken
      simp only [this]
    rw [← e]; exact h
  · obtain ⟨f1, w⟩ := f
    by_cases hw : f1 = .string ∨ f1 = .special
    · have e : ∀ ft, dateTimeField p plainLook order ft i (f1, w) = dateTimeField p plainLook order ft i (.string, w) := by
        intro ft
        rcases hw with rfl | rfl <;> rfl
      rw [e] at h ⊢
      by_cases hty : (tokenResult (lookupIn dateTable w)).1 = .isotime
      · exfalso
        refine (show Post (dateTimeField p plainLook order ft i (.string, w)) (fun _ _ => False) s from ?_) a s' h
        unfold dateTimeField wordToken
        simp only
        rw [Post.bind, Post.bind, Post.look]
        rcases hr : tokenResult (lookupIn dateTable w) with ⟨ty, v⟩
        rw [hr] at hty
        cases hty
        dsimp only
        rw [if_neg (by decide), Post.bind]
        unfold wordAction isoTimeWord
        rw [hi]
        wp
        intro _ hc
        exact (hc (by decide)).elim
      · rw [← h]
        have : wordAction ft i (tokenResult (lookupIn dateTable w)).1 (tokenResult (lookupIn dateTable w)).2 =
            wordAction ftypes i (tokenResult (lookupIn dateTable w)).1 (tokenResult (lookupIn dateTable w)).2 := by
          generalize (tokenResult (lookupIn dateTable w)).1 = ty at hty ⊢
          unfold wordAction
          cases ty <;> first | rfl | exact absurd rfl hty
        have l : ∀ s : Dec × Unit, lookDate plainLook i w s = (.ok (tokenResult (lookupIn dateTable w)), s) := by
          intro s
          simp only [lookDate, plainLook, searchDate_eq]
        unfold dateTimeField wordToken
        simp only [St.bind_run, l, this]
    · rw [← h]
      unfold dateTimeField
      cases f1 <;> first | exact absurd (Or.inl rfl) hw | exact absurd (Or.inr rfl) hw | rfl

theorem loop_types {ft : List TokenField} : ∀ (l : List Field) (i : Nat) {s s' : Dec × Unit} {a : Unit},
    (∀ j, i ≤ j → j < i + l.length → ft[j + 1]? = ftypes[j + 1]? ∨ ft[j + 1]? = some .string) →
    dateTimeLoop p plainLook order ft l i s = (.ok a, s') → dateTimeLoop p plainLook order ftypes l i s = (.ok a, s') := by
  intro l
  induction l with
  | nil => intro i s s' a _ h; exact h
  | cons f l ih =>
    intro i s s' a hj h
    rw [dateTimeLoop] at h ⊢
    obtain ⟨x, s1, h1, h2⟩ := bind_ran h
    rw [St.bind_run, field_types (hj i (Nat.le_refl _) (by simp)) h1]
    exact ih _ (fun j q1 q2 => hj j (by omega) (by simp only [List.length_cons]; omega)) h2

theorem fieldT_types {ft : List TokenField} {f : Field} {s s' : Dec × Unit} {a : Unit}
    (hi : f.1 = .string ∨ f.1 = .special → ft[i + 1]? = ftypes[i + 1]? ∨ ft[i + 1]? = some .string)
    (h0 : i = 0 → (ft.getLast? = some .date → ftypes.getLast? = some .date) ∧ (ft[1]? = some .time → ftypes[1]? = some .time))
    (h1 : i = 0 → ftypes.length ≥ 2 ∧ ftypes.getLast? = some .date → ft.length ≥ 2 ∧ ft.getLast? = some .date)
    (h2 : i = 0 → ft.length ≥ 2 → ft.getLast? = some .date → ftypes.length ≥ 2)
    (h : timeOnlyField p plainLook order ft i f s = (.ok a, s')) : timeOnlyField p plainLook order ftypes i f s = (.ok a, s') := by
  obtain ⟨f1, w⟩ := f
  by_cases hw : f1 = .string ∨ f1 = .special
  · have e : ∀ ft, timeOnlyField p plainLook order ft i (f1, w) = timeOnlyField p plainLook order ft i (.string, w) := by
      intro ft
      rcases hw with rfl | rfl <;> rfl
    rw [e] at h ⊢
    rcases hi hw with hi | hi
    · have e : timeOnlyField p plainLook order ft i (.string, w) = timeOnlyField p plainLook order ftypes i (.string, w) := by
        have : ∀ ty v, wordActionT ft i ty v = wordActionT ftypes i ty v := by
          intro ty v
          unfold wordActionT isoTimeWordT
          rw [hi]
        unfold timeOnlyField wordTokenT
        simp only [this]
      rw [← e]; exact h
    by_cases hty : (tokenResult (lookupIn dateTable w)).1 = .isotime
    · exfalso
      refine (show Post (timeOnlyField p plainLook order ft i (.string, w)) (fun _ _ => False) s from ?_) a s' h
      unfold timeOnlyField wordTokenT
      simp only
      rw [Post.bind, Post.bind, Post.look]
      rcases hr : tokenResult (lookupIn dateTable w) with ⟨ty, v⟩
      rw [hr] at hty
      cases hty
      dsimp only
      rw [if_neg (by decide), Post.bind]
      unfold wordActionT isoTimeWordT
      rw [hi]
      wp
      intro hc
      exact (hc (by decide)).elim
    · rw [← h]
      have : wordActionT ft i (tokenResult (lookupIn dateTable w)).1 (tokenResult (lookupIn dateTable w)).2 =
          wordActionT ftypes i (tokenResult (lookupIn dateTable w)).1 (tokenResult (lookupIn dateTable w)).2 := by
        generalize (tokenResult (lookupIn dateTable w)).1 = ty at hty ⊢
        unfold wordActionT
        cases ty <;> first | rfl | exact absurd rfl hty
      have l : ∀ s : Dec × Unit, lookDate plainLook i w s = (.ok (tokenResult (lookupIn dateTable w)), s) := by
        intro s
        simp only [lookDate, plainLook, searchDate_eq]
      unfold timeOnlyField wordTokenT
      simp only [St.bind_run, l, this]
  · by_cases hd : f1 = .date
    · subst hd
      unfold timeOnlyField at h ⊢
      simp only at h ⊢
      obtain ⟨x, s1, k1, k2⟩ := bind_ran h
      rw [St.bind_run]
      unfold dateTokenT at k1 ⊢
      split at k1
      · rename_i hc
        obtain ⟨i0, c2, c3⟩ := hc
        have : ftypes.length ≥ 2 := by
          rcases c3 with c3 | c3
          · exact h2 i0 c2 c3
          · have := (h0 i0).2 c3
            rw [List.getElem?_eq_some_iff] at this
            obtain ⟨q, -⟩ := this
            omega
        rw [if_pos ⟨i0, this, c3.imp (h0 i0).1 (h0 i0).2⟩, k1]
        exact k2
      · cases k1
    · by_cases hn : f1 = .number
      · subst hn
        rw [← h]
        have : ∀ str, numberTokenT p plainLook order ft i str = numberTokenT p plainLook order ftypes i str := by
          intro str
          have : (i = 0 ∧ ft.length ≥ 2 ∧ ft.getLast? = some TokenField.date) ↔ (i = 0 ∧ ftypes.length ≥ 2 ∧ ftypes.getLast? = some TokenField.date) :=
            ⟨fun ⟨a, b, c⟩ => ⟨a, h2 a b c, (h0 a).1 c⟩, fun ⟨a, b⟩ => ⟨a, h1 a b⟩⟩
          unfold numberTokenT
          simp only [this]
        unfold timeOnlyField
        simp only [this]
      · rw [← h]
        unfold timeOnlyField
        cases f1 <;> first | exact absurd (Or.inl rfl) hw | exact absurd (Or.inr rfl) hw | exact absurd rfl hd | exact absurd rfl hn | rfl

theorem loopT_types {ft : List TokenField} (h0 : (ft.getLast? = some .date → ftypes.getLast? = some .date) ∧ (ft[1]? = some .time → ftypes[1]? = some .time))
    (h1 : ftypes.length ≥ 2 ∧ ftypes.getLast? = some .date → ft.length ≥ 2 ∧ ft.getLast? = some .date)
    (h2 : ft.length ≥ 2 → ft.getLast? = some .date → ftypes.length ≥ 2) : ∀ (l : List Field) (i : Nat) {s s' : Dec × Unit} {a : Unit},
    (∀ j, i ≤ j → j < i + l.length → ft[j + 1]? = ftypes[j + 1]? ∨ ft[j + 1]? = some .string) →
    timeOnlyLoop p plainLook order ft l i s = (.ok a, s') → timeOnlyLoop p plainLook order ftypes l i s = (.ok a, s') := by
  intro l
  induction l with
  | nil => intro i s s' a _ h; exact h
  | cons f l ih =>
    intro i s s' a hj h
    rw [timeOnlyLoop] at h ⊢
    obtain ⟨x, s1, k1, k2⟩ := bind_ran h
    rw [St.bind_run, fieldT_types (fun _ => hj i (Nat.le_refl _) (by simp)) (fun _ => h0) (fun _ => h1) (fun _ => h2) k1]
    exact ih _ (fun j q1 q2 => hj j (by omega) (by simp only [List.length_cons]; omega)) k2

/-- A date stands at the beginning of a time only. -/
theorem loopT_noDate : ∀ (l : List Field) (i : Nat) {s s' : Dec × Unit} {a : Unit}, 0 < i → timeOnlyLoop p plainLook order ftypes l i s = (.ok a, s') →
    ∀ f ∈ l, f.1 ≠ .date := by
  intro l
  induction l with
  | nil => intro i s s' a _ _ f hf; cases hf
  | cons g l ih =>
    intro i s s' a hi h f hf
    rw [timeOnlyLoop] at h
    obtain ⟨x, s1, k1, k2⟩ := bind_ran h
    rcases List.mem_cons.1 hf with rfl | hf
    · intro hd
      obtain ⟨f1, w⟩ := f
      cases hd
      exact date_refusedT s hi x s1 k1
    · exact ih _ (Nat.succ_pos _) k2 f hf

theorem types_more (l : List Field) (w : Bytes) (j : Nat) (hj : j < l.length) :
    ((l ++ [(TokenField.string, w)]).map Prod.fst)[j + 1]? = (l.map Prod.fst)[j + 1]? ∨
      ((l ++ [(TokenField.string, w)]).map Prod.fst)[j + 1]? = some .string := by
  by_cases h : j + 1 < l.length
  · left
    rw [List.map_append, List.getElem?_append_left (by simpa using h)]
  · right
    rw [List.map_append, List.getElem?_append_right (by simpa using h)]
    simp [show j + 1 - l.length = 0 by omega]

/-- The fields before a word at the end. -/
theorem loop_more {l : List Field} {w : Bytes} {s s' : Dec × Unit} {a : Unit}
    (h : dateTimeLoop p plainLook order ((l ++ [(TokenField.string, w)]).map Prod.fst) (l ++ [(.string, w)]) 0 s = (.ok a, s')) :
    ∃ s1 ft, dateTimeLoop p plainLook order (l.map Prod.fst) l 0 s = (.ok (), s1) ∧
      dateTimeField p plainLook order ft l.length (.string, w) s1 = (.ok a, s') := by
  obtain ⟨s1, h1, h2⟩ := loop_before _ _ _ h
  refine ⟨s1, ((l ++ [(TokenField.string, w)]).map Prod.fst), loop_types _ _ (fun j _ hj => types_more l w j (by omega)) h1, ?_⟩
  · rw [dateTimeLoop] at h2
    obtain ⟨x, s2, k1, k2⟩ := bind_ran h2
    rw [dateTimeLoop] at k2
    cases k2
    rw [Nat.zero_add] at k1
    exact k1

theorem loopT_more {l : List Field} {w : Bytes} {s s' : Dec × Unit} {a : Unit}
    (h : timeOnlyLoop p plainLook order ((l ++ [(TokenField.string, w)]).map Prod.fst) (l ++ [(.string, w)]) 0 s = (.ok a, s')) :
    ∃ s1 ft, timeOnlyLoop p plainLook order (l.map Prod.fst) l 0 s = (.ok (), s1) ∧
      timeOnlyField p plainLook order ft l.length (.string, w) s1 = (.ok a, s') := by
  obtain ⟨s1, h1, h2⟩ := loopT_before _ _ _ h
  have last : ((l ++ [(TokenField.string, w)]).map Prod.fst).getLast? = some .string := by simp
  have a1 : ((l ++ [(TokenField.string, w)]).map Prod.fst)[1]? = some TokenField.time → (l.map Prod.fst)[1]? = some TokenField.time := by
    intro e
    by_cases hl : 1 < l.length
    · rwa [List.map_append, List.getElem?_append_left (by simpa using hl)] at e
    · rw [List.map_append, List.getElem?_append_right (by simpa using hl)] at e
      have : 1 - (l.map Prod.fst).length = 0 ∨ 1 - (l.map Prod.fst).length = 1 := by omega
      rcases this with q | q <;> · rw [q] at e; simp at e
  have a2 : ¬ ((l.map Prod.fst).length ≥ 2 ∧ (l.map Prod.fst).getLast? = some TokenField.date) := by
    rintro ⟨e1, e2⟩
    rcases l with _ | ⟨f, _ | ⟨g, l⟩⟩
    · simp at e1
    · simp at e1
    · rw [timeOnlyLoop] at h1
      obtain ⟨x, s2, k1, k2⟩ := bind_ran h1
      have hm : TokenField.date ∈ (g :: l).map Prod.fst := by
        rw [List.map_cons, List.map_cons, List.getLast?_cons_cons] at e2
        exact List.mem_of_getLast? e2
      obtain ⟨f', hf, hd⟩ := List.mem_map.1 hm
      exact loopT_noDate _ _ (Nat.succ_pos _) k2 f' hf hd
  refine ⟨s1, ((l ++ [(TokenField.string, w)]).map Prod.fst), loopT_types ⟨fun e => ?_, a1⟩ (fun e => absurd e a2) (fun _ e => ?_) _ _
    (fun j _ hj => types_more l w j (by omega)) h1, ?_⟩
  · rw [last] at e; cases e
  · rw [last] at e; cases e
  · rw [timeOnlyLoop] at h2
    obtain ⟨x, s2, k1, k2⟩ := bind_ran h2
    rw [timeOnlyLoop] at k2
    cases k2
    rw [Nat.zero_add] at k1
    exact k1

/-! ## What the word does -/

theorem era_marks {w : Bytes} {v : Int} (hw : tokenResult (lookupIn dateTable w) = (.adbc, v)) (s : Dec × Unit) :
    Post (dateTimeField p plainLook order ftypes i (.string, w)) (fun _ s' => s'.1 = { s.1 with bc := v = 1, tMask := TokenType.adbc.mask, fMask := s.1.fMask ||| TokenType.adbc.mask } ∧
      s.1.fMask.testBit TokenType.adbc.code = false) s := by
  unfold dateTimeField wordToken
  simp only
  rw [Post.bind, Post.bind, Post.look, hw]
  dsimp only
  rw [if_neg (by decide), Post.bind]
  unfold wordAction
  wp
  refine ⟨fun h => (by cases h), fun _ => ?_⟩
  rw [addMask_post]
  exact fun hm => ⟨rfl, bits_apart hm _ (mask_bit _)⟩

theorem era_marksT {w : Bytes} {v : Int} (hw : tokenResult (lookupIn dateTable w) = (.adbc, v)) (s : Dec × Unit) :
    Post (timeOnlyField p plainLook order ftypes i (.string, w)) (fun _ s' => s'.1 = { s.1 with bc := v = 1, tMask := TokenType.adbc.mask, fMask := s.1.fMask ||| TokenType.adbc.mask } ∧
      s.1.fMask.testBit TokenType.adbc.code = false) s := by
  unfold timeOnlyField wordTokenT
  simp only
  rw [Post.bind, Post.bind, Post.look, hw]
  dsimp only
  rw [if_neg (by decide), Post.bind]
  unfold wordActionT
  wp
  refine ⟨fun h => (by cases h), fun _ => ?_⟩
  rw [addMask_post]
  exact fun hm => ⟨rfl, bits_apart hm _ (mask_bit _)⟩

theorem weekday_marks {w : Bytes} {v : Int} (hw : tokenResult (lookupIn dateTable w) = (.dow, v)) (s : Dec × Unit) :
    Post (dateTimeField p plainLook order ftypes i (.string, w)) (fun _ s' => s'.1 = { s.1 with tm := { s.1.tm with wday := v }, tMask := TokenType.dow.mask, fMask := s.1.fMask ||| TokenType.dow.mask }) s := by
  unfold dateTimeField wordToken
  simp only
  rw [Post.bind, Post.bind, Post.look, hw]
  dsimp only
  rw [if_neg (by decide), Post.bind]
  unfold wordAction
  wp
  refine ⟨fun h => (by cases h), fun _ => ?_⟩
  rw [addMask_post]
  exact fun _ => rfl

theorem ignored_does {w : Bytes} {v : Int} (hw : tokenResult (lookupIn dateTable w) = (.ignoreDtf, v)) (s : Dec × Unit) :
    Post (dateTimeField p plainLook order ftypes i (.string, w)) (fun _ s' => s'.1 = s.1) s := by
  unfold dateTimeField wordToken
  simp only
  rw [Post.bind, Post.bind, Post.look, hw]
  dsimp only
  rw [if_pos rfl]
  wp
  exact fun h => absurd trivial h

theorem ignored_doesT {w : Bytes} {v : Int} (hw : tokenResult (lookupIn dateTable w) = (.ignoreDtf, v)) (s : Dec × Unit) :
    Post (timeOnlyField p plainLook order ftypes i (.string, w)) (fun _ s' => s'.1 = s.1) s := by
  unfold timeOnlyField wordTokenT
  simp only
  rw [Post.bind, Post.bind, Post.look, hw]
  dsimp only
  rw [if_pos rfl]
  wp
  exact fun h => absurd trivial h

/-! ## The end of the decoding -/

/-- The bits of the mask that are looked at in the end. -/
def keyBits : Nat := 64526

theorem and_key {a b k : Nat} (h : a &&& keyBits = b &&& keyBits) (hk : keyBits &&& k = k) : a &&& k = b &&& k := by
  rw [← hk, ← Nat.and_assoc, ← Nat.and_assoc, h]

theorem key_or {a k : Nat} (hk : k &&& keyBits = 0) : (a ||| k) &&& keyBits = a &&& keyBits := by
  rw [Nat.and_or_distrib_right, hk, Nat.or_zero]

theorem validateDate_key {tm : PgTime} {m n : Nat} {a b c : Bool} (h : m &&& keyBits = n &&& keyBits) :
    tm.validateDate p m a b c = tm.validateDate p n a b c := by
  have h1 : hasBits m M_YEAR = hasBits n M_YEAR := by unfold hasBits; rw [and_key h (by decide)]
  have h2 : hasBits m M_DOY = hasBits n M_DOY := by unfold hasBits; rw [and_key h (by decide)]
  have h3 : hasBits m M_MONTH = hasBits n M_MONTH := by unfold hasBits; rw [and_key h (by decide)]
  have h4 : hasBits m M_DAY = hasBits n M_DAY := by unfold hasBits; rw [and_key h (by decide)]
  have h5 : m &&& DTK_DATE_M = n &&& DTK_DATE_M := and_key h (by decide)
  unfold PgTime.validateDate PgTime.validateYear PgTime.validateDoy PgTime.validateMonthDay
  simp only [h1, h2, h3, h4, h5]

theorem validateDate_weekday {tm tm' : PgTime} {m : Nat} {a b c : Bool} (k : Int) (h : tm.validateDate p m a b c = .ok tm') :
    ({ tm with wday := k } : PgTime).validateDate p m a b c = .ok { tm' with wday := k } := by
  unfold PgTime.validateDate at h ⊢
  obtain ⟨t1, h1, h⟩ := Res.bind_eq_ok.1 h
  obtain ⟨t2, h2, h⟩ := Res.bind_eq_ok.1 h
  have e1 : ({ tm with wday := k } : PgTime).validateYear p m a b c = .ok { t1 with wday := k } := by
    unfold PgTime.validateYear at h1 ⊢
    repeat' split at h1
    all_goals simp only [*, if_true, if_false, Bool.false_eq_true]
    all_goals first
      | (cases h1; done)
      | (cases h1; rfl)
      | (obtain ⟨x, hx, h1⟩ := Res.bind_eq_ok.1 h1; cases h1; rw [hx]; rfl)
      | (obtain ⟨x, hx, h1⟩ := Res.bind_eq_ok.1 h1; obtain ⟨y, hy, h1⟩ := Res.bind_eq_ok.1 h1; cases h1; rw [hx, Res.bind_ok, hy]; rfl)
  have e2 : ({ t1 with wday := k } : PgTime).validateDoy p m = .ok { t2 with wday := k } := by
    unfold PgTime.validateDoy at h2 ⊢
    split at h2
    · rename_i hc
      rw [if_pos hc]
      obtain ⟨x, hx, h2⟩ := Res.bind_eq_ok.1 h2
      obtain ⟨y, hy, h2⟩ := Res.bind_eq_ok.1 h2
      obtain ⟨z, hz, h2⟩ := Res.bind_eq_ok.1 h2
      obtain ⟨w, hw, h2⟩ := Res.bind_eq_ok.1 h2
      cases h2
      simp only [hx, hy, hz, hw, Res.bind_ok]
      rfl
    · rename_i hc
      rw [if_neg hc]
      cases h2; rfl
  rw [e1, Res.bind_ok, e2, Res.bind_ok]
  unfold PgTime.validateMonthDay at h ⊢
  split at h
  · cases h
  · rename_i c1
    refine (if_neg c1).trans ?_
    split at h
    · cases h
    · rename_i c2
      refine (if_neg c2).trans ?_
      split at h
      · rename_i c3
        rw [if_pos c3]
        obtain ⟨n, hn, h⟩ := Res.bind_eq_ok.1 h
        rw [show daysOfMonth ({ t2 with wday := k } : PgTime).year ({ t2 with wday := k } : PgTime).mon = .ok n from hn, Res.bind_ok]
        split at h
        · cases h
        · rename_i c4
          refine (if_neg c4).trans ?_
          cases h; rfl
      · rename_i c3
        rw [if_neg c3]
        cases h; rfl

/-- The rule for `am` and `pm` on the hour alone. -/
def noonHour (p : Profile) (mer hour : Int) : Res Int :=
  if mer ≠ 2 ∧ hour > 12 then .err .overflow
  else if mer = 0 ∧ hour = 12 then .ok 0
  else if mer = 1 ∧ hour ≠ 12 then chk32 p (hour + 12)
  else .ok hour

theorem finish_iff {d e : Dec} {a : Unit} : finishFields p d = (.ok a, e) ↔
    ∃ tm h, d.tm.validateDate p d.fMask d.isJulian d.is2 d.bc = .ok tm ∧ noonHour p d.mer tm.hour = .ok h ∧ e = { d with tm := { tm with hour := h } } := by
  unfold finishFields
  rw [St.get_bind]
  cases hv : d.tm.validateDate p d.fMask d.isJulian d.is2 d.bc with
  | err x => exact ⟨fun h => (by cases h), fun ⟨_, _, h, _⟩ => by cases h⟩
  | panic => exact ⟨fun h => (by cases h), fun ⟨_, _, h, _⟩ => by cases h⟩
  | ok tm =>
    rw [St.lift_ok_bind, St.mod_bind, St.get_bind]
    simp only [Res.ok.injEq, exists_and_left, exists_eq_left']
    unfold noonHour
    split
    · exact ⟨fun h => (by cases h), fun ⟨_, h, _⟩ => by cases h⟩
    · split
      · exact ⟨fun h => by cases h; exact ⟨0, rfl, rfl⟩, fun ⟨_, h, h'⟩ => by cases h; rw [h']; rfl⟩
      · split
        · cases hc : chk32 p (tm.hour + 12) with
          | err x => exact ⟨fun h => (by cases h), fun ⟨_, h, _⟩ => by cases h⟩
          | panic => exact ⟨fun h => (by cases h), fun ⟨_, h, _⟩ => by cases h⟩
          | ok x =>
            rw [St.lift_ok_bind]
            exact ⟨fun h => by cases h; exact ⟨x, rfl, rfl⟩, fun ⟨_, h, h'⟩ => by cases h; rw [h']; rfl⟩
        · exact ⟨fun h => by cases h; exact ⟨_, rfl, rfl⟩, fun ⟨_, h, h'⟩ => by cases h; rw [h']; rfl⟩

/-- The same but for the day of the week and the bits of the mask that do not matter. -/
structure Decorated (d e : Dec) : Prop where
  tm : ∃ k, d.tm = { e.tm with wday := k }
  mask : d.fMask &&& keyBits = e.fMask &&& keyBits
  jul : d.isJulian = e.isJulian
  two : d.is2 = e.is2
  bc : d.bc = e.bc
  mer : d.mer = e.mer
  fSec : d.fSec = e.fSec
  kind : d.dType = e.dType

theorem finish_decorated {d e e' : Dec} {a : Unit} (h : Decorated d e) (run : finishFields p e = (.ok a, e')) :
    ∃ d', finishFields p d = (.ok a, d') ∧ Decorated d' e' := by
  obtain ⟨tm, x, h1, h2, rfl⟩ := finish_iff.1 run
  obtain ⟨k, hk⟩ := h.tm
  refine ⟨_, finish_iff.2 ⟨{ tm with wday := k }, x, ?_, ?_, rfl⟩, ⟨k, ?_⟩, h.mask, h.jul, h.two, h.bc, h.mer, h.fSec, h.kind⟩
  · rw [hk, h.jul, h.two, h.bc, validateDate_key h.mask]
    exact validateDate_weekday k h1
  · rw [h.mer]; exact h2
  · rfl

/-- The fields of a date or timestamp with and without the word. -/
theorem decode_decorated {l : List Field} {w : Bytes} {d : Dec} (hw : ∀ ft i d, EraSeen d → Post (dateTimeField p plainLook order ft i (.string, w)) (fun _ s' => Decorated d s'.1) (d, ()))
    (h : decodeDateTime p plainLook order (l ++ [(.string, w)]) ({}, ()) = (.ok (), (d, ()))) :
    ∃ e, decodeDateTime p plainLook order l ({}, ()) = (.ok (), (e, ())) ∧ Decorated e d := by
  unfold decodeDateTime at h ⊢
  obtain ⟨⟨⟩, ⟨s1, ⟨⟩⟩, h1, h⟩ := bind_ran h
  obtain ⟨⟨⟩, ⟨s2, ⟨⟩⟩, h2, h⟩ := bind_ran h
  obtain ⟨⟨s0, ⟨⟩⟩, ft, h3, h4⟩ := loop_more h1
  have k := hw _ _ s0 (loop_era _ _ _ _ (fun h => by cases h) _ _ h3) _ _ h4
  have h2' : finishFields p s1 = (.ok (), s2) := by
    have a1 : (finishFields p s1).1 = .ok () := congrArg Prod.fst h2
    have a2 : (finishFields p s1).2 = s2 := congrArg (fun x => x.2.1) h2
    rw [← a1, ← a2]
  obtain ⟨e, q1, q2⟩ := finish_decorated k h2'
  have h : (if s2.dType = .date ∧ s2.fMask &&& DTK_DATE_M ≠ DTK_DATE_M ∧ s2.fMask &&& DTK_TIME_M ≠ DTK_TIME_M then St.fail .invalid
      else pure () : St (Dec × Unit) Unit) (s2, ()) = (.ok (), (d, ())) := h
  refine ⟨e, ?_, ?_⟩
  · rw [St.bind_ok h3, St.bind_ok (noLook_run q1), St.bind_ok (noLook_run (St.get_run _)), q2.kind, and_key q2.mask (k := DTK_DATE_M) (by decide), and_key q2.mask (k := DTK_TIME_M) (by decide)]
    split at h
    · cases h
    · rename_i hc
      rw [if_neg hc]; rfl
  · split at h
    · cases h
    · cases h; exact q2

/-- The fields of a time with and without the word. -/
theorem decodeT_decorated {l : List Field} {w : Bytes} {d : Dec} (hw : ∀ ft i d, EraSeen d → Post (timeOnlyField p plainLook order ft i (.string, w)) (fun _ s' => Decorated d s'.1) (d, ()))
    (h : decodeTimeOnly p plainLook order (l ++ [(.string, w)]) ({}, ()) = (.ok (), (d, ()))) :
    ∃ e, decodeTimeOnly p plainLook order l ({}, ()) = (.ok (), (e, ())) ∧ Decorated e d := by
  unfold decodeTimeOnly at h ⊢
  obtain ⟨⟨⟩, ⟨s1, ⟨⟩⟩, h1, h⟩ := bind_ran h
  obtain ⟨⟨⟩, ⟨s2, ⟨⟩⟩, h2, h⟩ := bind_ran h
  obtain ⟨⟨s0, ⟨⟩⟩, ft, h3, h4⟩ := loopT_more h1
  have k := hw _ _ s0 (loopT_era _ _ _ _ (fun h => by cases h) _ _ h3) _ _ h4
  have h2' : finishFields p s1 = (.ok (), s2) := by
    have a1 : (finishFields p s1).1 = .ok () := congrArg Prod.fst h2
    have a2 : (finishFields p s1).2 = s2 := congrArg (fun x => x.2.1) h2
    rw [← a1, ← a2]
  obtain ⟨e, q1, q2⟩ := finish_decorated k h2'
  have h : (if badTimeOnly s2 then St.fail .overflow else pure () : St (Dec × Unit) Unit) (s2, ()) = (.ok (), (d, ())) := h
  have hb : badTimeOnly e = badTimeOnly s2 := by
    obtain ⟨x, hx⟩ := q2.tm
    unfold badTimeOnly
    rw [hx, q2.fSec]
  refine ⟨e, ?_, ?_⟩
  · rw [St.bind_ok h3, St.bind_ok (noLook_run q1), St.bind_ok (noLook_run (St.get_run _)), hb]
    split at h
    · cases h
    · rename_i hc
      rw [if_neg hc]; rfl
  · split at h
    · cases h
    · cases h; exact q2

theorem era_decorated {w : Bytes} (hw : tokenResult (lookupIn dateTable w) = (.adbc, 0)) (ft : List TokenField) (i : Nat) (d : Dec) (hd : EraSeen d) :
    Post (dateTimeField p plainLook order ft i (.string, w)) (fun _ s' => Decorated d s'.1) (d, ()) :=
  (era_marks hw _).mono fun _ s' ⟨h, h2⟩ => by
    rw [h]
    refine ⟨⟨_, rfl⟩, (key_or (by decide)).symm, rfl, rfl, ?_, rfl, rfl, rfl⟩
    show d.bc = decide ((0 : Int) = 1)
    cases hb : d.bc with
    | false => rfl
    | true => rw [hd hb] at h2; cases h2

theorem eraT_decorated {w : Bytes} (hw : tokenResult (lookupIn dateTable w) = (.adbc, 0)) (ft : List TokenField) (i : Nat) (d : Dec) (hd : EraSeen d) :
    Post (timeOnlyField p plainLook order ft i (.string, w)) (fun _ s' => Decorated d s'.1) (d, ()) :=
  (era_marksT hw _).mono fun _ s' ⟨h, h2⟩ => by
    rw [h]
    refine ⟨⟨_, rfl⟩, (key_or (by decide)).symm, rfl, rfl, ?_, rfl, rfl, rfl⟩
    show d.bc = decide ((0 : Int) = 1)
    cases hb : d.bc with
    | false => rfl
    | true => rw [hd hb] at h2; cases h2

theorem weekday_decorated {w : Bytes} {v : Int} (hw : tokenResult (lookupIn dateTable w) = (.dow, v)) (ft : List TokenField) (i : Nat) (d : Dec) :
    Post (dateTimeField p plainLook order ft i (.string, w)) (fun _ s' => Decorated d s'.1) (d, ()) :=
  (weekday_marks hw _).mono fun _ s' h => by
    rw [h]
    exact ⟨⟨d.tm.wday, rfl⟩, (key_or (by decide)).symm, rfl, rfl, rfl, rfl, rfl, rfl⟩

theorem ignored_decorated {w : Bytes} {v : Int} (hw : tokenResult (lookupIn dateTable w) = (.ignoreDtf, v)) (ft : List TokenField) (i : Nat) (d : Dec) :
    Post (dateTimeField p plainLook order ft i (.string, w)) (fun _ s' => Decorated d s'.1) (d, ()) :=
  (ignored_does hw _).mono fun _ s' h => by
    rw [h]
    exact ⟨⟨d.tm.wday, rfl⟩, rfl, rfl, rfl, rfl, rfl, rfl, rfl⟩

theorem ignoredT_decorated {w : Bytes} {v : Int} (hw : tokenResult (lookupIn dateTable w) = (.ignoreDtf, v)) (ft : List TokenField) (i : Nat) (d : Dec) :
    Post (timeOnlyField p plainLook order ft i (.string, w)) (fun _ s' => Decorated d s'.1) (d, ()) :=
  (ignored_doesT hw _).mono fun _ s' h => by
    rw [h]
    exact ⟨⟨d.tm.wday, rfl⟩, rfl, rfl, rfl, rfl, rfl, rfl, rfl⟩

theorem Decorated.date {d e : Dec} (h : Decorated d e) : Date.ofDec p d = Date.ofDec p e := by
  obtain ⟨k, hk⟩ := h.tm
  unfold Date.ofDec
  rw [h.kind, hk]

theorem Decorated.timestamp {d e : Dec} (h : Decorated d e) : Timestamp.ofDec p d = Timestamp.ofDec p e := by
  obtain ⟨k, hk⟩ := h.tm
  unfold Timestamp.ofDec
  rw [h.kind, hk, h.fSec]
  rfl

theorem Decorated.time {d e : Dec} (h : Decorated d e) : Time.fromPgtime p d.tm d.fSec = Time.fromPgtime p e.tm e.fSec := by
  obtain ⟨k, hk⟩ := h.tm
  rw [hk, h.fSec]
  rfl

end Pg
