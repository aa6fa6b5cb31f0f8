import Verif.Lemmas.Cuts
import Verif.Lemmas.MasksTime
import Verif.Lemmas.MonthNames
import Verif.Lemmas.Spaces
import Verif.Lemmas.Token
import Verif.Spec.Twice

/-! # The fields of recognisable words -/

namespace Pg
open Spec

/-! ## Words and bytes -/

/-- The first word of a text. -/
theorem first_word {x : Bytes} {l : List Bytes} {s : Bytes} (h : words s = x :: l) :
    ∃ a c, s = a ++ (x ++ c) ∧ Spaces a ∧ x ≠ [] ∧ (∀ b ∈ x, isSpace b = false) ∧ Over c ∧ words c = l := by
  have core : ∀ (r : Bytes) (b : Nat) (x : Bytes) (l : List Bytes), isSpace b = false → words (b :: r) = x :: l →
      ∃ c, b :: r = x ++ c ∧ x ≠ [] ∧ (∀ b ∈ x, isSpace b = false) ∧ Over c ∧ words c = l := by
    intro r
    induction r with
    | nil =>
      intro b x l hb h
      rw [words_over hb (Or.inl rfl)] at h
      cases h
      exact ⟨[], rfl, by simp, by simpa using hb, Or.inl rfl, rfl⟩
    | cons a r ih =>
      intro b x l hb h
      cases ha : isSpace a with
      | true =>
        have ho : Over (a :: r) := Or.inr ⟨a, r, rfl, ha⟩
        rw [words_over hb ho] at h
        cases h
        exact ⟨a :: r, rfl, by simp, by simpa using hb, ho, rfl⟩
      | false =>
        obtain ⟨w, l', e, -⟩ := words_head ha r
        rw [words_cons hb ha, e] at h
        cases h
        obtain ⟨c, h1, -, h3, h4, h5⟩ := ih a _ _ ha e
        refine ⟨c, by rw [h1]; rfl, by simp, ?_, h4, h5⟩
        intro z hz
        rcases List.mem_cons.1 hz with rfl | hz
        · exact hb
        · exact h3 z hz
  have e := List.takeWhile_append_dropWhile (p := isSpace) (l := s)
  rw [← words_trim] at h
  cases hd : s.dropWhile isSpace with
  | nil => rw [hd] at h; cases h
  | cons b r =>
    rw [hd] at h e
    obtain ⟨c, h1, h2⟩ := core r b x l (by
      have := List.head?_dropWhile_not isSpace s
      rw [hd] at this
      simpa using this) h
    exact ⟨s.takeWhile isSpace, c, by rw [← h1, e], takeSpaces s, h2⟩

theorem mem_last {l1 : List Bytes} {c : Nat} {x y : Bytes} (hc : isSpace c = false) (hy : Spaces y) (h : words (x ++ c :: y) = l1) :
    ∃ w ∈ l1, w.getLast? = some c := by
  subst h
  induction x with
  | nil =>
    have ho : Over y := by
      cases y with
      | nil => exact Or.inl rfl
      | cons a r => exact Or.inr ⟨a, r, rfl, hy a (by simp)⟩
    exact ⟨[c], by rw [List.nil_append, words_over hc ho]; simp, rfl⟩
  | cons b x ih =>
    rw [List.cons_append]
    cases hb : isSpace b with
    | true => rw [words_space hb]; exact ih
    | false =>
      by_cases ho : Over (x ++ c :: y)
      · rw [words_over hb ho]
        obtain ⟨w, hw, e⟩ := ih
        exact ⟨w, List.mem_cons_of_mem _ hw, e⟩
      · obtain ⟨w, l, e, h2⟩ := words_head hb (x ++ c :: y)
        obtain ⟨hne, e2⟩ := h2 ho
        rw [e]
        rw [e2] at ih
        obtain ⟨w', hw', e'⟩ := ih
        rcases List.mem_cons.1 hw' with rfl | hw'
        · refine ⟨b :: w', by simp, ?_⟩
          rw [List.getLast?_cons, e']; rfl
        · exact ⟨w', List.mem_cons_of_mem _ hw', e'⟩

theorem noSign_of {a : Bytes} (h : ∀ w ∈ words a, ¬ EndsInSign w) : NoSign a := by
  intro x c y e hy
  by_cases hc : isSpace c = true
  · rcases space_cases hc with rfl | rfl | rfl | rfl | rfl <;> decide
  · subst e
    obtain ⟨w, hw, e⟩ := mem_last (by simpa using hc) hy rfl
    have := h w hw
    unfold EndsInSign at this
    rw [e] at this
    constructor <;> rintro rfl <;> simp at this

/-- A word of the text, with what is before and after it. -/
theorem a_word {x : Bytes} : ∀ (l1 : List Bytes) {l : List Bytes} {s : Bytes}, words s = l1 ++ x :: l →
    ∃ a c, s = a ++ (x ++ c) ∧ words a = l1 ∧ (a = [] ∨ Ends a) ∧ Over c ∧ words c = l := by
  intro l1
  induction l1 with
  | nil =>
    intro l s h
    obtain ⟨a, c, h1, h2, h3, h4, h5, h6⟩ := first_word h
    refine ⟨a, c, h1, by have := words_spaces h2 []; rw [List.append_nil] at this; exact this, ?_, h5, h6⟩
    rcases List.eq_nil_or_concat a with e | ⟨y, d, e⟩
    · exact Or.inl e
    · exact Or.inr ⟨y, d, by rw [e, List.concat_eq_append], h2 d (by rw [e]; simp)⟩
  | cons w l1 ih =>
    intro l s h
    obtain ⟨a, c, h1, h2, h3, h4, h5, h6⟩ := first_word (x := w) (l := l1 ++ x :: l) (by rw [h]; rfl)
    obtain ⟨a', c', k1, k2, k3, k4, k5⟩ := ih h6
    have hne : c ≠ [] := by rintro rfl; rw [show words [] = [] from rfl] at h6; simp at h6
    obtain ⟨d, r, e, hd⟩ : ∃ d r, c = d :: r ∧ isSpace d = true := by
      rcases h5 with h5 | h5
      · exact absurd h5 hne
      · exact h5
    have over_words : ∀ (w c : Bytes), (∀ b ∈ w, isSpace b = false) → w ≠ [] → Over c → words (w ++ c) = w :: words c := by
      intro w
      induction w with
      | nil => intro c _ h; exact absurd rfl h
      | cons b w ih =>
        intro c hw _ hc
        have hb := hw b (by simp)
        cases w with
        | nil => exact words_over hb hc
        | cons b' w =>
          rw [List.cons_append, List.cons_append, words_cons hb (hw b' (by simp)), ← List.cons_append,
            ih c (fun z hz => hw z (List.mem_cons_of_mem _ hz)) (by simp) hc]
    have ha' : a' ≠ [] → ∃ d' r', a' = d' :: r' ∧ isSpace d' = true := by
      intro hne'
      obtain ⟨d', r', e'⟩ := List.exists_cons_of_ne_nil hne'
      refine ⟨d', r', e', ?_⟩
      rw [e', e] at k1
      injection k1 with k1 _
      rw [← k1]; exact hd
    have hx : a' ≠ [] := by
      rintro rfl
      rw [List.nil_append, e] at k1
      obtain ⟨a'', c'', m1, m2, m3, m4, m5, m6⟩ := first_word (x := x) (l := l) (s := c) (by rw [h6]; cases l1 with
        | nil => rfl
        | cons w' l' =>
          exfalso
          rw [show words [] = [] from rfl] at k2
          cases k2)
      cases x with
      | nil => exact m3 rfl
      | cons z x' =>
        injection k1 with k1 _
        have := m4 z (by simp)
        rw [← k1, hd] at this
        cases this
    refine ⟨a ++ (w ++ a'), c', by rw [h1, k1]; simp [List.append_assoc], ?_, ?_, k4, k5⟩
    · rw [words_spaces h2, over_words w a' h4 h3 (Or.inr (ha' hx)), k2]
    · rcases k3 with k3 | k3
      · exact absurd k3 hx
      · obtain ⟨y, d', e1, e2⟩ := k3
        exact Or.inr ⟨a ++ (w ++ y), d', by rw [e1]; simp [List.append_assoc], e2⟩

/-! ## The field of a recognisable word -/

theorem over_stops {c : Bytes} (hc : Over c) {q : Nat → Bool} (hq : ∀ b, isSpace b = true → q b = false) : Stops q c := by
  rcases hc with rfl | ⟨a, r, rfl, ha⟩
  · exact Stops.nil _
  · exact Stops.cons (hq a ha)

/-- The field that the scanner makes of the word. -/
def Mark.Field (k : Mark) (f : Field) : Prop :=
  match k with
  | .clock => f.1 = .time
  | .date => f.1 = .date ∧ f.2 ≠ []
  | .month => f.1 = .string ∧ ∃ v, tokenResult (lookupIn dateTable f.2) = (.month, v)
  | .weekday => f.1 = .string ∧ ∃ v, tokenResult (lookupIn dateTable f.2) = (.dow, v)
  | .meridiem => f.1 = .string ∧ ∃ v, tokenResult (lookupIn dateTable f.2) = (.ampm, v)
  | .era => f.1 = .string ∧ ∃ v, tokenResult (lookupIn dateTable f.2) = (.adbc, v)

theorem word_scan {u : TokenField} {w c : Bytes} (hw : Letters w) (nw : w ≠ []) (hc : Over c) :
    ∃ b r, w = b :: r ∧ startB b = true ∧ scanField u b (w ++ c) = .ok ((.string, lower w), c) := by
  obtain ⟨b, r, rfl⟩ := List.exists_cons_of_ne_nil nw
  have hb := hw b (by simp)
  refine ⟨b, r, rfl, startB_alpha hb, ?_⟩
  have hnd : isDigit b = false := by
    rw [isAlpha_iff] at hb
    rw [Bool.eq_false_iff, ne_eq, isDigit_iff]; omega
  have hn46 : b ≠ 46 := by rw [isAlpha_iff] at hb; omega
  have hr : Stops isAlpha c := over_stops hc fun b h => by rcases space_cases h with rfl | rfl | rfl | rfl | rfl <;> rfl
  have hd : alphaIsDate (lower (b :: r)) c = .ok false := by
    rcases hc with rfl | ⟨a, r, rfl, ha⟩
    · rfl
    · rcases space_cases ha with rfl | rfl | rfl | rfl | rfl <;> rfl
  rw [scanField, if_neg (by simp [hnd]), if_neg hn46, if_pos hb, scanAlpha, takeWhile_span hw hr, dropWhile_span hw hr, hd]
  rfl

theorem listed_word {l : List (Bytes × Int)} {ty : TokenType}
    (hl : ∀ x ∈ l, (tokenResult (lookupIn dateTable x.1)).1 = ty ∧ x.1.map smallLetter = x.1 ∧ (∀ b ∈ x.1, isAlpha b = true) ∧
      x.1 ≠ []) {w s : Bytes} {n : Int} (hs : (s, n) ∈ l) (hw : SameButCase w s) :
    Letters w ∧ w ≠ [] ∧ ∃ v, tokenResult (lookupIn dateTable (lower w)) = (ty, v) := by
  obtain ⟨h1, h2, h3, h4⟩ := hl _ hs
  obtain ⟨k1, k2⟩ := small_alpha hw h2 h3 h4
  exact ⟨k1, k2, _, by rw [lower_word hw h2]; exact Prod.ext h1 rfl⟩

theorem month_list : ∀ x ∈ monthWords ++ shortMonthWords, (tokenResult (lookupIn dateTable x.1)).1 = .month ∧
    x.1.map smallLetter = x.1 ∧ (∀ b ∈ x.1, isAlpha b = true) ∧ x.1 ≠ [] := by decide +kernel
theorem weekday_list : ∀ x ∈ weekdayWords ++ shortWeekdayWords, (tokenResult (lookupIn dateTable x.1)).1 = .dow ∧
    x.1.map smallLetter = x.1 ∧ (∀ b ∈ x.1, isAlpha b = true) ∧ x.1 ≠ [] := by decide +kernel
theorem meridiem_list : ∀ x ∈ [(b!"am", (0 : Int)), (b!"pm", 1)], (tokenResult (lookupIn dateTable x.1)).1 = .ampm ∧
    x.1.map smallLetter = x.1 ∧ (∀ b ∈ x.1, isAlpha b = true) ∧ x.1 ≠ [] := by decide +kernel
theorem era_list : ∀ x ∈ [(b!"ad", (0 : Int)), (b!"bc", 1)], (tokenResult (lookupIn dateTable x.1)).1 = .adbc ∧
    x.1.map smallLetter = x.1 ∧ (∀ b ∈ x.1, isAlpha b = true) ∧ x.1 ≠ [] := by decide +kernel

theorem digit_word {u : TokenField} {a s : Bytes} {f : Field} {c : Bytes} (ha : Digits a) (na : a ≠ [])
    (h : scanDigit (a ++ s) = (f, c)) : ∃ b r, a = b :: r ∧ startB b = true ∧ scanField u b (a ++ s) = .ok (f, c) := by
  obtain ⟨b, r, rfl⟩ := List.exists_cons_of_ne_nil na
  have hb := digits_isDigit ha b (by simp)
  exact ⟨b, r, rfl, startB_digit hb, by rw [scanField, if_pos hb, h]⟩

theorem sep_of {d : Nat} (h : Separator d) : isSep d := h

theorem delim_take {d : Nat} {c : Bytes} {q : Nat → Bool} (hd : isSep d) (hc : Over c) (hq : ∀ b, isSpace b = true → q b = false) :
    Stops (fun x => x = d || q x) c := by
  refine over_stops hc fun b h => ?_
  simp only [Bool.or_eq_false_iff, decide_eq_false_iff_not]
  refine ⟨?_, hq b h⟩
  rintro rfl
  rcases hd with rfl | rfl | rfl <;> cases h

theorem space_digit : ∀ b, isSpace b = true → isDigit b = false := fun b h => by
  rcases space_cases h with rfl | rfl | rfl | rfl | rfl <;> rfl
theorem space_alnum : ∀ b, isSpace b = true → isAlnum b = false := fun b h => by
  rcases space_cases h with rfl | rfl | rfl | rfl | rfl <;> rfl
theorem space_timeB : ∀ b, isSpace b = true → isTimeB b = false := fun b h => by
  rcases space_cases h with rfl | rfl | rfl | rfl | rfl <;> rfl
theorem space_wordB : ∀ b, isSpace b = true → isWordB b = false := fun b h => by
  rcases space_cases h with rfl | rfl | rfl | rfl | rfl <;> rfl

/-- The field of a date in one word. -/
theorem joined_scan {x c : Bytes} (u : TokenField) (hx : JoinedDate x) (hc : Over c) :
    ∃ b r w, x = b :: r ∧ startB b = true ∧ scanField u b (x ++ c) = .ok ((.date, w), c) ∧ w ≠ [] ∧ (NoUpper x → w = x) := by
  cases hx with
  | numbers d a b r hd na ha nb hb hr =>
    have hd := sep_of hd
    have : scanDigit (a ++ (d :: (b ++ d :: r) ++ c)) = ((.date, a ++ d :: (b ++ d :: r)), c) := by
      rw [scanDigit, List.cons_append, takeWhile_span (digits_isDigit ha) (Stops.cons hd.notDigit),
        dropWhile_span (digits_isDigit ha) (Stops.cons hd.notDigit)]
      simp only
      obtain ⟨y, t, e, hy, -⟩ := digit_head (r := d :: (r ++ c)) hb nb
      have hsd : scanDelim d (b ++ d :: r ++ c) = (.date, d :: (b ++ d :: r), c) := by
        rw [List.append_assoc, List.cons_append]
        rw [e, scanDelim, if_pos hy, ← e, dropWhile_span (digits_isDigit hb) (Stops.cons hd.notDigit),
          takeWhile_span (digits_isDigit hb) (Stops.cons hd.notDigit)]
        simp only [List.head?_cons, if_true]
        have hall : ∀ y ∈ d :: r, (decide (y = d) || isDigit y) = true := by
          intro y hy
          rcases List.mem_cons.1 hy with rfl | hy
          · simp
          · rcases hr y hy with h | h
            · simp [h]
            · simp [(isDigit_iff y).2 h]
        have hstop := delim_take hd hc space_digit
        have e5 : d :: (r ++ c) = (d :: r) ++ c := rfl
        rw [e5, takeWhile_span hall hstop, dropWhile_span hall hstop]
      rw [hsd]
      rcases hd with rfl | rfl | rfl <;> simp
    obtain ⟨b', r', e, h1, h2⟩ := digit_word (u := u) ha na this
    refine ⟨b', r' ++ d :: (b ++ d :: r), a ++ d :: (b ++ d :: r), by rw [e]; rfl, h1, ?_, by simp, fun _ => rfl⟩
    rw [List.append_assoc]; exact h2
  | named d a l r hd na ha hl hr =>
    have hd := sep_of hd
    have hl' : isAlpha l = true := (isAlpha_iff l).2 hl
    have hnd : isDigit l = false := by
      unfold Letter at hl
      rw [Bool.eq_false_iff, ne_eq, isDigit_iff]; omega
    have : ∃ w, w ≠ [] ∧ (NoUpper (a ++ d :: l :: r) → w = a ++ d :: l :: r) ∧ scanDigit (a ++ (d :: l :: r ++ c)) = ((.date, w), c) := by
      refine ⟨a ++ d :: lower (l :: r), by simp, fun h => by rw [lower_same (s := l :: r) fun x hx => h x (by simp at hx ⊢; tauto)], ?_⟩
      rw [scanDigit, List.cons_append, takeWhile_span (digits_isDigit ha) (Stops.cons hd.notDigit),
        dropWhile_span (digits_isDigit ha) (Stops.cons hd.notDigit)]
      simp only
      have hsd : scanDelim d (l :: r ++ c) = (.date, d :: lower (l :: r), c) := by
        rw [List.cons_append, scanDelim, if_neg (by rw [hnd]; decide)]
        have hall : ∀ y ∈ l :: r, (decide (y = d) || isAlnum y) = true := by
          intro y hy
          rcases List.mem_cons.1 hy with rfl | hy
          · simp [isAlnum, hl']
          · rcases hr y hy with h | h | h
            · simp [h]
            · simp [isAlnum, (isAlpha_iff y).2 h]
            · simp [isAlnum, (isDigit_iff y).2 h]
        have hstop := delim_take hd hc space_alnum
        rw [← List.cons_append, takeWhile_span hall hstop, dropWhile_span hall hstop]
      rw [hsd]
      rcases hd with rfl | rfl | rfl <;> simp
    obtain ⟨f, hf1, hf2, this⟩ := this
    obtain ⟨b', r', e, h1, h2⟩ := digit_word (u := u) ha na this
    refine ⟨b', r' ++ d :: l :: r, f, by rw [e]; rfl, h1, ?_, hf1, hf2⟩
    rw [List.append_assoc]; exact h2
  | nameFirst d a r hd na ha hr =>
    have hd := sep_of hd
    have hl : Letters a := fun b hb => (isAlpha_iff b).2 (ha b hb)
    obtain ⟨b, a', rfl⟩ := List.exists_cons_of_ne_nil na
    have hb := hl b (by simp)
    have hnd : isDigit b = false := by
      rw [isAlpha_iff] at hb
      rw [Bool.eq_false_iff, ne_eq, isDigit_iff]; omega
    have hn46 : b ≠ 46 := by rw [isAlpha_iff] at hb; omega
    have hall : ∀ y ∈ d :: r, isWordB y = true := by
      intro y hy
      rcases List.mem_cons.1 hy with rfl | hy
      · rcases hd with rfl | rfl | rfl <;> rfl
      · rcases hr y hy with h | h | h | h | h | h
        · simp [isWordB, isAlnum, (isAlpha_iff y).2 h]
        · simp [isWordB, isAlnum, (isDigit_iff y).2 h]
        · rcases h with rfl | rfl | rfl <;> rfl
        all_goals subst h; rfl
    have hst : Stops isAlpha (d :: r ++ c) := Stops.cons (by rcases hd with rfl | rfl | rfl <;> rfl)
    have hstop : Stops isWordB c := over_stops hc space_wordB
    refine ⟨b, a' ++ d :: r, lower (b :: a') ++ d :: r, rfl, startB_alpha hb, ?_, by simp [lower], fun h => by
      rw [lower_same (s := b :: a') fun x hx => h x (by simp at hx ⊢; tauto)]⟩
    rw [scanField, if_neg (by simp [hnd]), if_neg hn46, if_pos hb, List.append_assoc, scanAlpha, takeWhile_span hl hst, dropWhile_span hl hst,
      takeWhile_span hall hstop, dropWhile_span hall hstop]
    rcases hd with rfl | rfl | rfl <;> rfl

theorem mark_scan {k : Mark} {x c : Bytes} (u : TokenField) (hx : k.Is x) (hc : Over c) :
    ∃ b r f, x = b :: r ∧ startB b = true ∧ scanField u b (x ++ c) = .ok (f, c) ∧ Mark.Field k f := by
  cases k with
  | clock =>
    obtain ⟨a, r, rfl, na, ha, hr⟩ := hx
    have hr' : ∀ b ∈ 58 :: r, isTimeB b = true := by
      intro b hb
      rcases List.mem_cons.1 hb with rfl | hb
      · rfl
      · have := hr b hb
        unfold Digit at this
        simp only [isTimeB, Bool.or_eq_true, isDigit_iff, decide_eq_true_eq]
        tauto
    have : scanDigit (a ++ (58 :: r ++ c)) = ((.time, a ++ 58 :: r), c) := by
      rw [scanDigit, List.cons_append, takeWhile_span (digits_isDigit ha) (Stops.cons rfl), dropWhile_span (digits_isDigit ha) (Stops.cons rfl)]
      simp only [if_true]
      rw [← List.cons_append, takeWhile_span hr' (over_stops hc space_timeB), dropWhile_span hr' (over_stops hc space_timeB)]
    obtain ⟨b, r', e, h1, h2⟩ := digit_word (u := u) ha na this
    refine ⟨b, r' ++ 58 :: r, (.time, a ++ 58 :: r), by rw [e]; rfl, h1, ?_, rfl⟩
    rw [List.append_assoc]; exact h2
  | date =>
    obtain ⟨b, r, w, h1, h2, h3, h4, -⟩ := joined_scan u hx hc
    exact ⟨b, r, (.date, w), h1, h2, h3, rfl, h4⟩
  | month =>
    obtain ⟨m, s, hs, hw⟩ := hx
    obtain ⟨h1, h2, h3⟩ := listed_word month_list hs hw
    obtain ⟨b, r, e, h4, h5⟩ := word_scan (u := u) h1 h2 hc
    exact ⟨b, r, (.string, lower x), e, h4, h5, rfl, h3⟩
  | weekday =>
    obtain ⟨s, n, hs, hw⟩ := hx
    obtain ⟨h1, h2, h3⟩ := listed_word weekday_list hs hw
    obtain ⟨b, r, e, h4, h5⟩ := word_scan (u := u) h1 h2 hc
    exact ⟨b, r, (.string, lower x), e, h4, h5, rfl, h3⟩
  | meridiem =>
    obtain ⟨pm, hw⟩ := hx
    obtain ⟨h1, h2, h3⟩ := listed_word (w := x) (s := if pm then b!"pm" else b!"am") (n := if pm then 1 else 0) meridiem_list
      (by cases pm <;> decide) (by cases pm <;> exact hw)
    obtain ⟨b, r, e, h4, h5⟩ := word_scan (u := u) h1 h2 hc
    exact ⟨b, r, (.string, lower x), e, h4, h5, rfl, h3⟩
  | era =>
    have : Letters x ∧ x ≠ [] ∧ ∃ v, tokenResult (lookupIn dateTable (lower x)) = (.adbc, v) := by
      rcases hx with hx | hx
      · exact listed_word (n := 0) era_list (by decide) hx
      · exact listed_word (n := 1) era_list (by decide) hx
    obtain ⟨h1, h2, h3⟩ := this
    obtain ⟨b, r, e, h4, h5⟩ := word_scan (u := u) h1 h2 hc
    exact ⟨b, r, (.string, lower x), e, h4, h5, rfl, h3⟩

/-- The scanner on a text that starts with a recognisable word. -/
theorem scanLoop_mark {k : Mark} {x c : Bytes} {u : TokenField} (hx : k.Is x) (hc : Over c) {fuel cap nf : Nat} {l : List Field}
    (hf : (x ++ c).length < fuel) (h : scanLoop u fuel (x ++ c) cap nf = .ok l) :
    ∃ f l' fuel' cap' nf', l = f :: l' ∧ Mark.Field k f ∧ c.length < fuel' ∧ scanLoop u fuel' c cap' nf' = .ok l' := by
  obtain ⟨b, r, f, e, h1, h2, h3⟩ := mark_scan u hx hc
  cases fuel with
  | zero => omega
  | succ n =>
    have hs : isSpace b = false := startB_noSpace h1
    rw [scanLoop] at h
    rw [e] at h h2
    simp only [List.cons_append, List.dropWhile_cons_of_neg (show ¬ isSpace b = true by rw [hs]; decide)] at h h2
    split at h
    · cases h
    · rw [if_pos (show (isDigit b || b = 46 || isAlpha b || b = 43 || b = 45) = true from h1)] at h
      split at h
      · cases h
      · rw [h2, Res.bind_ok] at h
        simp only at h
        split at h
        · cases h
        · rw [Res.bind_eq_ok] at h
          obtain ⟨l', h4, h⟩ := h
          cases h
          refine ⟨f, l', n, _, _, rfl, h3, ?_, h4⟩
          rw [e] at hf
          simp only [List.cons_append, List.length_cons, List.length_append] at hf
          omega

/-- The scanner on a text in which a part is given twice. -/
theorem scan_twice {k : Mark} {u : TokenField} {s : Bytes} (h : Twice k s) {l : List Field} (hs : scan u s = .ok l) :
    ∃ l1 f l2 g l3, l = l1 ++ f :: (l2 ++ g :: l3) ∧ Mark.Field k f ∧ Mark.Field k g := by
  obtain ⟨w1, x, w2, y, w3, hw, hx, hy, n1, n2⟩ := h
  obtain ⟨a, c, rfl, k2, k3, k4, k5⟩ := a_word w1 hw
  obtain ⟨a', c', rfl, m2, m3, m4, m5⟩ := a_word w2 k5
  unfold scan at hs
  split at hs
  · cases hs
  · obtain ⟨l1, l2, fu, ca, nf, rfl, hf, hl⟩ := scanLoop_within _ a _ _ _ k3 (noSign_of (by rw [k2]; exact n1)) (Nat.lt_succ_self _) hs
    obtain ⟨f, l', fu', ca', nf', rfl, hF, hf', hl'⟩ := scanLoop_mark hx k4 hf hl
    obtain ⟨l1', l2', fu, ca, nf, rfl, hf, hl⟩ := scanLoop_within _ a' _ _ _ m3 (noSign_of (by rw [m2]; exact n2)) hf' hl'
    obtain ⟨g, l'', _, _, _, rfl, hG, _, _⟩ := scanLoop_mark hy m4 hf hl
    exact ⟨l1, f, l1', g, l'', rfl, hF, hG⟩

/-! ## Two month names in one word -/

theorem dateSplit_within {t : Bytes} {l0 : Nat} {t0 : Bytes} (ht : t = l0 :: t0) (hl : isAlpha l0 = true) :
    ∀ (fuel : Nat) (A : Bytes) (nf : Nat) (l : List Bytes), (∀ b, A.getLast? = some b → isAlpha b = false) →
      nf + A.length < 25 → (A ++ t).length < fuel → dateSplit fuel (A ++ t) nf = .ok l →
      ∃ l1 l2 fuel', l = l1 ++ l2 ∧ l1.length ≤ A.length ∧ t.length < fuel' ∧ dateSplit fuel' t (nf + l1.length) = .ok l2 := by
  intro fuel
  induction fuel with
  | zero => intro A nf l _ _ h; omega
  | succ n ih =>
    intro A nf l hA hn hf h
    have hnd : isDigit l0 = false := by
      rw [isAlpha_iff] at hl
      rw [Bool.eq_false_iff, ne_eq, isDigit_iff]; omega
    have hal : isAlnum l0 = true := by unfold isAlnum; rw [hl]; rfl
    -- a run stops at the latest where `t` begins
    have stop : ∀ (q : Nat → Bool) (X : Bytes), (q l0 = false ∨ ∃ y b, X = y ++ [b] ∧ q b = false) →
        ∃ B, B <:+ X ∧ (X ++ t).dropWhile q = B ++ t := by
      intro q X
      induction X with
      | nil =>
        rintro (h | ⟨y, b, h, -⟩)
        · exact ⟨[], List.suffix_refl _, by rw [ht]; simp [h]⟩
        · simp at h
      | cons x X ihX =>
        intro h
        cases hx : q x with
        | false => exact ⟨x :: X, List.suffix_refl _, by simp [hx]⟩
        | true =>
          obtain ⟨B, h1, h2⟩ := ihX (by
            rcases h with h | ⟨y, b, h, hb⟩
            · exact Or.inl h
            · cases y with
              | nil => cases h; rw [hx] at hb; cases hb
              | cons z y => cases h; exact Or.inr ⟨y, b, rfl, hb⟩)
          exact ⟨B, h1.trans (List.suffix_cons _ _), by simp [hx, h2]⟩
    have hsuf : ∀ B, B <:+ A → ∀ b, B.getLast? = some b → isAlpha b = false := by
      rintro B ⟨C, rfl⟩ b hb
      refine hA b ?_
      rw [List.getLast?_append, hb]; rfl
    obtain ⟨B, b1, b2⟩ := stop (fun b => ¬ isAlnum b) A (Or.inl (by simp [hal]))
    cases B with
    | nil =>
      refine ⟨[], l, n + 1, rfl, by simp, ?_, ?_⟩
      · rw [List.length_append] at hf; omega
      · have e : t.dropWhile (fun b => ¬ isAlnum b) = t := by rw [ht]; simp [hal]
        rw [dateSplit] at h ⊢
        rw [b2, List.nil_append] at h
        rw [e]
        rw [if_neg (show ¬ ((A ++ t).isEmpty = true ∨ nf ≥ 25) by rw [ht]; simp; omega)] at h
        rw [if_neg (show ¬ (t.isEmpty = true ∨ nf + [].length ≥ 25) by rw [ht]; simp; omega)]
        exact h
    | cons x B =>
      have hlen := b1.length_le
      simp only [List.length_cons] at hlen
      rw [dateSplit, if_neg (show ¬ ((A ++ t).isEmpty = true ∨ nf ≥ 25) by rw [ht]; simp; omega), b2] at h
      simp only [List.cons_append] at h
      have finish : ∀ (q : Nat → Bool), q x = true → (q l0 = false ∨ ∃ y b, B = y ++ [b] ∧ q b = false) → ∀ w l',
          dateSplit n ((x :: (B ++ t)).dropWhile q) (nf + 1) = .ok l' → l = w :: l' →
          ∃ l1 l2 fuel', l = l1 ++ l2 ∧ l1.length ≤ A.length ∧ t.length < fuel' ∧ dateSplit fuel' t (nf + l1.length) = .ok l2 := by
        intro q hq hB w l' h1 e
        obtain ⟨C, c1, c2⟩ := stop q B hB
        rw [List.dropWhile_cons_of_pos hq, c2] at h1
        have hc := c1.length_le
        obtain ⟨l1, l2, fu, e1, e2, e3, e4⟩ := ih C (nf + 1) l' (hsuf C ((c1.trans (List.suffix_cons _ _)).trans b1)) (by omega)
          (by simp only [List.length_append] at hf ⊢; omega) h1
        refine ⟨w :: l1, l2, fu, by rw [e, e1]; rfl, by simp only [List.length_cons]; omega, e3, ?_⟩
        rw [show nf + (w :: l1).length = nf + 1 + l1.length by simp only [List.length_cons]; omega]
        exact e4
      split at h
      · rename_i hd
        rw [Res.bind_eq_ok] at h
        obtain ⟨l', h1, h⟩ := h
        exact finish isDigit hd (Or.inl hnd) _ l' h1 (by cases h; rfl)
      · rename_i hd
        rw [Res.bind_eq_ok] at h
        obtain ⟨l', h1, h⟩ := h
        have hxa : isAlpha x = true := by
          have hx : isAlnum x = true := by
            have := List.head?_dropWhile_not (fun b => ¬ isAlnum b) (A ++ t)
            rw [b2] at this
            simpa using this
          unfold isAlnum at hx
          cases h : isAlpha x with
          | true => rfl
          | false => rw [h] at hx; exact absurd hx (by simpa using hd)
        refine finish isAlpha hxa (Or.inr ?_) _ l' h1 (by cases h; rfl)
        rcases List.eq_nil_or_concat B with e | ⟨y, b, e⟩
        · have := hsuf _ b1 x (by rw [e]; rfl)
          rw [hxa] at this; cases this
        · rw [List.concat_eq_append] at e
          refine ⟨y, b, e, hsuf _ b1 b ?_⟩
          rw [e, ← List.cons_append, List.getLast?_append]; rfl

/-- A piece of letters is split off. -/
theorem dateSplit_piece {m c : Bytes} (hm : Letters m) (nm : m ≠ []) (hc : Stops isAlpha c) {fuel nf : Nat} (hn : nf < 25)
    (hf : (m ++ c).length < fuel) {l : List Bytes} (h : dateSplit fuel (m ++ c) nf = .ok l) :
    ∃ l' fuel', l = m :: l' ∧ c.length < fuel' ∧ dateSplit fuel' c (nf + 1) = .ok l' := by
  cases fuel with
  | zero => omega
  | succ n =>
    obtain ⟨x, r, rfl⟩ := List.exists_cons_of_ne_nil nm
    have hx := hm x (by simp)
    have hnd : isDigit x = false := by
      rw [isAlpha_iff] at hx
      rw [Bool.eq_false_iff, ne_eq, isDigit_iff]; omega
    have hal : isAlnum x = true := by unfold isAlnum; rw [hx]; rfl
    rw [dateSplit, if_neg (show ¬ ((x :: r ++ c).isEmpty = true ∨ nf ≥ 25) by simp; omega), List.cons_append,
      List.dropWhile_cons_of_neg (by simp [hal])] at h
    simp only [hnd, Bool.false_eq_true, if_false] at h
    rw [← List.cons_append, takeWhile_span hm hc, dropWhile_span hm hc, Res.bind_eq_ok] at h
    obtain ⟨l', h1, h⟩ := h
    cases h
    refine ⟨l', n, rfl, ?_, h1⟩
    simp only [List.length_append, List.length_cons] at hf
    omega

/-- Two month names among the pieces. -/
theorem textPass_twice {m n : Bytes} (hm : (m.head?.map isAlpha) = some true) (hn : (n.head?.map isAlpha) = some true)
    (tm : (tokenResult (lookupIn dateTable m)).1 = .month) (tn : (tokenResult (lookupIn dateTable n)).1 = .month)
    (l1 l2 l3 : List Bytes) (i : Nat) (s : DateS × Unit) :
    Post (textPass plainLook (l1 ++ m :: (l2 ++ n :: l3)) i) (fun _ _ => False) s := by
  have after : ∀ (l2 : List Bytes) (i : Nat) (s : DateS × Unit), s.1.fMask.testBit 1 = true →
      Post (textPass plainLook (l2 ++ n :: l3) i) (fun _ _ => False) s := by
    intro l2
    induction l2 with
    | nil =>
      intro i s h
      rw [List.nil_append, textPass, if_pos hn, Post.bind, Post.look]
      dsimp only
      rw [tn, if_neg (by decide), if_pos rfl]
      wp
      intro h0
      rw [Decidable.not_not] at h0
      have := bits_apart h0 1 h
      exact absurd this (by decide)
    | cons f l2 ih =>
      intro i s h
      rw [List.cons_append, textPass]
      wp
      refine ⟨fun _ => ?_, fun _ => ih _ _ h⟩
      rw [Post.look]
      wp
      refine ⟨fun _ => ih _ _ h, fun _ _ _ => ih _ _ ?_⟩
      exact Bits.left _ _ 1 h
  induction l1 generalizing i s with
  | nil =>
    rw [List.nil_append, textPass, if_pos hm, Post.bind, Post.look]
    dsimp only
    rw [tm, if_neg (by decide), if_pos rfl]
    wp
    intro _
    exact after _ _ _ (Bits.right _ _ 1 (by decide))
  | cons f l1 ih =>
    rw [List.cons_append, textPass]
    wp
    refine ⟨fun _ => ?_, fun _ => ih _ _⟩
    rw [Post.look]
    wp
    exact ⟨fun _ => ih _ _, fun _ _ _ => ih _ _⟩

theorem letter_iff (b : Nat) : Letter b ↔ isAlpha b = true := (isAlpha_iff b).symm

theorem decodeDate_months {x : Bytes} (hx : TwoMonths x) (hlen : x.length ≤ 25) (order : DateOrder) (s : Dec × Unit) :
    Post (decodeDate plainLook x order) (fun _ _ => False) s := by
  obtain ⟨a, m, b, n, c, rfl, ⟨k, hm⟩, ⟨k', hn⟩, ha, nb, hb, hb', hc⟩ := hx
  obtain ⟨m1, -, m2, m3⟩ := month_list _ hm
  obtain ⟨n1, -, n2, n3⟩ := month_list _ hn
  dsimp only at m1 m2 m3 n1 n2 n3
  have no : ∀ {b : Nat}, ¬ Letter b → isAlpha b = false := fun h => by rw [letter_iff] at h; simpa using h
  unfold decodeDate
  rw [Post.zoom]
  unfold dateBody
  rw [Post.bind, Post.lift]
  intro l hl
  simp only [List.length_append] at hlen
  have pm : 0 < m.length := List.length_pos_iff.2 m3
  have pn : 0 < n.length := List.length_pos_iff.2 n3
  have stops : ∀ {X : Bytes}, (∀ l, X.head? = some l → ¬ Letter l) → Stops isAlpha X := fun h x hx => no (h x hx)
  obtain ⟨x0, m', e0⟩ := List.exists_cons_of_ne_nil m3
  obtain ⟨y0, n', e1⟩ := List.exists_cons_of_ne_nil n3
  obtain ⟨l1, l2, fu, rfl, h1, h2, h3⟩ := dateSplit_within (t := m ++ (b ++ (n ++ c))) (by rw [e0]; rfl) (m2 x0 (by rw [e0]; simp))
    _ a _ _ (fun l h => no (ha l h)) (by omega) (Nat.lt_succ_self _) hl
  obtain ⟨l2', fu', rfl, h4, h5⟩ := dateSplit_piece m2 m3 (stops (X := b ++ (n ++ c)) (fun l h => hb l (by
    obtain ⟨z, b', rfl⟩ := List.exists_cons_of_ne_nil nb
    exact h))) (by omega) h2 h3
  obtain ⟨l3, l4, fu, rfl, h6, h7, h8⟩ := dateSplit_within (t := n ++ c) (by rw [e1]; rfl) (n2 y0 (by rw [e1]; simp))
    _ b _ _ (fun l h => no (hb' l h)) (by omega) h4 h5
  obtain ⟨l5, fu', rfl, h9, h10⟩ := dateSplit_piece n2 n3 (stops hc) (by omega) h7 h8
  rw [Post.bind]
  refine (textPass_twice ?_ ?_ m1 n1 l1 l3 l5 _ _).mono fun _ _ h => h.elim
  · rw [e0]; simp [m2 x0 (by rw [e0]; simp)]
  · rw [e1]; simp [n2 y0 (by rw [e1]; simp)]

/-- A date field is read by `decode_date` or refused. -/
theorem date_field_never {w : Bytes} {c : Nat} {r : Bytes} (hw : w = c :: r) (s : Dec × Unit) (h : Added s.1)
    (hd : Post (decodeDate plainLook w order) (fun _ _ => False) s) :
    Post (dateTimeField p plainLook order ftypes i (.date, w)) (fun _ _ => False) s := by
  subst hw
  unfold dateTimeField dateToken
  wp
  intro _
  refine ⟨fun hc' => ?_, fun h10 => hd.mono fun _ _ h => h.elim⟩
  intro _ hp
  rw [addMask_post]
  intro hm
  rw [ne_eq, Decidable.not_not] at hp
  rcases hc' with h' | h'
  · exact h' hp
  · rcases h.2 hp with h1 | h1
    · refine h1 (Nat.eq_of_testBit_eq fun k => ?_)
      rw [Nat.zero_testBit]
      cases ht : s.1.tMask.testBit k with
      | false => rfl
      | true => have := bits_apart hm k ht; rw [h.1 k ht] at this; cases this
    · rw [h1] at h'; exact absurd h' (by decide)

/-- A field that is never accepted. -/
theorem loop_never {F : List TokenField → Nat → Field → St (Dec × Unit) Unit}
    {loop : List TokenField → List Field → Nat → St (Dec × Unit) Unit}
    (hl : ∀ ftypes f fs i, loop ftypes (f :: fs) i = do F ftypes i f; loop ftypes fs (i + 1))
    {I : Dec → Prop} (hI : ∀ ftypes i f s, I s.1 → Post (F ftypes i f) (fun _ s' => I s'.1) s) {x : Field}
    (hx : ∀ ftypes i s, I s.1 → Post (F ftypes i x) (fun _ _ => False) s) (l1 l2 : List Field) (ftypes : List TokenField)
    (i : Nat) (s : Dec × Unit) (hs : I s.1) : Post (loop ftypes (l1 ++ x :: l2) i) (fun _ _ => False) s := by
  induction l1 generalizing i s with
  | nil =>
    rw [List.nil_append, hl, Post.bind]
    exact (hx ftypes i s hs).mono fun _ _ h => h.elim
  | cons f l1 ih =>
    rw [List.cons_append, hl, Post.bind]
    exact (hI ftypes i f s hs).mono fun _ _ h => ih _ _ h

/-- The scanner on a text with a word that is a date. -/
theorem scan_date_word {u : TokenField} {s x : Bytes} {w1 w2 : List Bytes} (hw : words s = w1 ++ x :: w2)
    (hs' : ∀ w ∈ w1, ¬ EndsInSign w) (hx : JoinedDate x) (hu : NoUpper x) {l : List Field} (hs : scan u s = .ok l) :
    ∃ l1 l2, l = l1 ++ (.date, x) :: l2 := by
  obtain ⟨a, c, rfl, k2, k3, k4, k5⟩ := a_word w1 hw
  unfold scan at hs
  split at hs
  · cases hs
  · obtain ⟨l1, l2, fu, ca, nf, rfl, hf, hl⟩ := scanLoop_within _ a _ _ _ k3 (noSign_of (by rw [k2]; exact hs')) (Nat.lt_succ_self _) hs
    obtain ⟨b, r, w, e, h1, h2, h3, h4⟩ := joined_scan u hx k4
    obtain rfl := h4 hu
    cases fu with
    | zero => omega
    | succ n =>
      have hs : isSpace b = false := startB_noSpace h1
      rw [scanLoop] at hl
      have e' : (w ++ c).dropWhile isSpace = w ++ c := by rw [e]; simp [hs]
      rw [e'] at hl
      rw [e] at hl h2
      simp only [List.cons_append] at hl h2
      split at hl
      · cases hl
      · rw [if_pos (show (isDigit b || b = 46 || isAlpha b || b = 43 || b = 45) = true from h1)] at hl
        split at hl
        · cases hl
        · rw [h2, Res.bind_ok] at hl
          simp only at hl
          split at hl
          · cases hl
          · rw [Res.bind_eq_ok] at hl
            obtain ⟨l', h4, hl⟩ := hl
            cases hl
            exact ⟨l1, l', by rw [e]⟩

end Pg
