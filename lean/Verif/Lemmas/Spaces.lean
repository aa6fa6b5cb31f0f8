import Verif.Lemmas.Scan
import Verif.Lemmas.Lists
import Verif.Spec.Words

/-! # Scanning texts that differ in their white space -/

namespace Pg
open Spec

/-- All bytes are white space. -/
def Spaces (w : Bytes) : Prop := ∀ b ∈ w, isSpace b = true

/-- The same words, separated by other white space. -/
inductive WGap : Bytes → Bytes → Prop
  | nil {v w : Bytes} : Spaces v → Spaces w → WGap v w
  | cons {c : Nat} {s t : Bytes} : isSpace c = false → (c = 46 → (s = [] ↔ t = [])) → WGap s t →
      WGap (c :: s) (c :: t)
  | gap {v w s t : Bytes} : Spaces v → v ≠ [] → Spaces w → w ≠ [] → WGap s t → WGap (v ++ s) (w ++ t)

theorem Spaces.stops {w : Bytes} (h : Spaces w) {p : Nat → Bool} (hp : ∀ b, p b = true → isSpace b = false)
    (t : Bytes) (hw : w ≠ []) : Stops p (w ++ t) := by
  cases w with
  | nil => exact absurd rfl hw
  | cons a w =>
    refine Stops.cons ?_
    cases hh : p a with
    | false => rfl
    | true =>
      have := h a (List.mem_cons_self ..)
      rw [hp a hh] at this; cases this

theorem Spaces.stops' {w : Bytes} (h : Spaces w) {p : Nat → Bool} (hp : ∀ b, p b = true → isSpace b = false) :
    Stops p w := by
  by_cases hw : w = []
  · rw [hw]; exact Stops.nil _
  · have := h.stops hp [] hw
    rwa [List.append_nil] at this

theorem WGap.take {s t : Bytes} (h : WGap s t) {p : Nat → Bool} (hp : ∀ b, p b = true → isSpace b = false) :
    s.takeWhile p = t.takeWhile p ∧ WGap (s.dropWhile p) (t.dropWhile p) := by
  induction h with
  | nil hv hw =>
    rw [takeWhile_stop (hw.stops' hp), dropWhile_stop (hw.stops' hp), takeWhile_stop (hv.stops' hp),
      dropWhile_stop (hv.stops' hp)]
    exact ⟨rfl, .nil hv hw⟩
  | @cons c s t hc hd h ih =>
    cases hpc : p c with
    | true =>
      rw [List.takeWhile_cons_of_pos hpc, List.takeWhile_cons_of_pos hpc, List.dropWhile_cons_of_pos hpc,
        List.dropWhile_cons_of_pos hpc, ih.1]
      exact ⟨rfl, ih.2⟩
    | false =>
      have hn : ¬ p c = true := by rw [hpc]; simp
      rw [List.takeWhile_cons_of_neg hn, List.takeWhile_cons_of_neg hn, List.dropWhile_cons_of_neg hn,
        List.dropWhile_cons_of_neg hn]
      exact ⟨rfl, .cons hc hd h⟩
  | @gap v w s t hv nv hw nw h _ =>
    rw [takeWhile_stop (hv.stops hp s nv), takeWhile_stop (hw.stops hp t nw),
      dropWhile_stop (hv.stops hp s nv), dropWhile_stop (hw.stops hp t nw)]
    exact ⟨rfl, .gap hv nv hw nw h⟩

theorem Spaces.drop {w : Bytes} (h : Spaces w) (t : Bytes) :
    (w ++ t).dropWhile isSpace = t.dropWhile isSpace := by
  induction w with
  | nil => rfl
  | cons a w ih =>
    rw [List.cons_append, List.dropWhile_cons_of_pos (h a (List.mem_cons_self ..))]
    exact ih fun b hb => h b (List.mem_cons_of_mem _ hb)

/-- Leading white space removed: the texts are both empty, or start with the same byte. -/
theorem WGap.trim {s t : Bytes} (h : WGap s t) :
    (s.dropWhile isSpace = [] ∧ t.dropWhile isSpace = []) ∨
    ∃ c a b, isSpace c = false ∧ s.dropWhile isSpace = c :: a ∧ t.dropWhile isSpace = c :: b ∧
      (c = 46 → (a = [] ↔ b = [])) ∧ WGap a b := by
  induction h with
  | nil hv hw => exact .inl ⟨dropWhile_all hv, dropWhile_all hw⟩
  | @cons c s t hc hd h ih =>
    refine .inr ⟨c, s, t, hc, ?_, ?_, hd, h⟩ <;>
    · rw [List.dropWhile_cons_of_neg]; rw [hc]; simp
  | @gap v w s t hv nv hw nw h ih =>
    rw [hv.drop, hw.drop]; exact ih

/-- The cases of two texts as they stand. -/
theorem WGap.cases {s t : Bytes} (h : WGap s t) :
    ((s = [] ∨ ∃ a r, s = a :: r ∧ isSpace a = true) ∧ (t = [] ∨ ∃ a r, t = a :: r ∧ isSpace a = true)) ∨
    ∃ c a b, isSpace c = false ∧ s = c :: a ∧ t = c :: b ∧ (c = 46 → (a = [] ↔ b = [])) ∧ WGap a b := by
  have sp : ∀ {w : Bytes}, Spaces w → w = [] ∨ ∃ a r, w = a :: r ∧ isSpace a = true := by
    intro w hw
    cases w with
    | nil => exact .inl rfl
    | cons a w => exact .inr ⟨a, w, rfl, hw a (List.mem_cons_self ..)⟩
  have sp' : ∀ {w t : Bytes}, Spaces w → w ≠ [] → (w ++ t = [] ∨ ∃ a r, w ++ t = a :: r ∧ isSpace a = true) := by
    intro w t hw nw
    cases w with
    | nil => exact absurd rfl nw
    | cons a w => exact .inr ⟨a, w ++ t, rfl, hw a (List.mem_cons_self ..)⟩
  cases h with
  | nil hv hw => exact .inl ⟨sp hv, sp hw⟩
  | cons hc hd h => exact .inr ⟨_, _, _, hc, rfl, rfl, hd, h⟩
  | gap hv nv hw nw h => exact .inl ⟨sp' hv nv, sp' hw nw⟩

theorem scanDelim_gap {delim : Nat} (hd : isSpace delim = false) {s t : Bytes} (h : WGap s t)
    (h46 : delim = 46 → (s = [] ↔ t = [])) :
    (scanDelim delim s).1 = (scanDelim delim t).1 ∧ (scanDelim delim s).2.1 = (scanDelim delim t).2.1 ∧
      WGap (scanDelim delim s).2.2 (scanDelim delim t).2.2 := by
  have h1 : ∀ b, (decide (b = delim) || isDigit b) = true → isSpace b = false := by
    intro b hb
    simp only [Bool.or_eq_true, decide_eq_true_eq] at hb
    rcases hb with rfl | hb
    · exact hd
    · exact digit_noSpace b hb
  have h2 : ∀ b, (decide (b = delim) || isAlnum b) = true → isSpace b = false := by
    intro b hb
    simp only [Bool.or_eq_true, decide_eq_true_eq] at hb
    rcases hb with rfl | hb
    · exact hd
    · exact alnum_noSpace b hb
  -- both sides when the text is over
  have over : ∀ x : Bytes, (x = [] ∨ ∃ a r, x = a :: r ∧ isSpace a = true) →
      scanDelim delim x = (if x = [] ∧ delim = 46 then .number else .date, [delim], x) := by
    intro x hx
    rcases hx with rfl | ⟨a, r, rfl, ha⟩
    · simp only [scanDelim, true_and]
    · have hda : isDigit a = false := by
        cases hh : isDigit a with
        | false => rfl
        | true => rw [digit_noSpace a hh] at ha; cases ha
      have hst : Stops (fun b => decide (b = delim) || isAlnum b) (a :: r) := by
        refine Stops.cons ?_
        cases hh : (decide (a = delim) || isAlnum a) with
        | false => rfl
        | true => rw [h2 a hh] at ha; cases ha
      rw [scanDelim, if_neg (by rw [hda]; simp), takeWhile_stop hst, dropWhile_stop hst]
      simp [lower]
  rcases h.cases with ⟨e1, e2⟩ | ⟨c, a, b, hc, rfl, rfl, h46', hab⟩
  · rw [over s e1, over t e2]
    refine ⟨?_, rfl, h⟩
    by_cases hx : delim = 46
    · simp only [h46 hx]
    · simp [hx]
  · rw [scanDelim, scanDelim]
    by_cases hdc : isDigit c = true
    · rw [if_pos hdc, if_pos hdc]
      obtain ⟨t1, g1⟩ := h.take digit_noSpace
      have hh : (((c :: a).dropWhile isDigit).head? = some delim) = (((c :: b).dropWhile isDigit).head? = some delim) := by
        rcases g1.cases with ⟨e1, e2⟩ | ⟨c, a, b, hc, e1, e2, -, -⟩
        · have no : ∀ x : Bytes, (x = [] ∨ ∃ a r, x = a :: r ∧ isSpace a = true) → ¬ x.head? = some delim := by
            intro x hx hy
            rcases hx with rfl | ⟨a, r, rfl, ha⟩
            · cases hy
            · cases hy; rw [hd] at ha; cases ha
          exact propext ⟨fun hx => absurd hx (no _ e1), fun hx => absurd hx (no _ e2)⟩
        · rw [e1, e2]; rfl
      by_cases hx : ((c :: b).dropWhile isDigit).head? = some delim
      · have hx' := hx
        rw [← hh] at hx'
        obtain ⟨t2, g2⟩ := g1.take h1
        simp only [if_pos hx, if_pos hx', t1, t2]
        exact ⟨trivial, trivial, g2⟩
      · have hx' := hx
        rw [← hh] at hx'
        simp only [if_neg hx, if_neg hx', t1]
        exact ⟨trivial, trivial, g1⟩
    · rw [if_neg hdc, if_neg hdc]
      obtain ⟨t1, g1⟩ := h.take h2
      simp only [t1]
      exact ⟨trivial, trivial, g1⟩

theorem scanDigit_gap {s t : Bytes} (h : WGap s t) :
    (scanDigit s).1 = (scanDigit t).1 ∧ WGap (scanDigit s).2 (scanDigit t).2 := by
  obtain ⟨t1, g1⟩ := h.take digit_noSpace
  have over : ∀ x : Bytes, (x.dropWhile isDigit = [] ∨ ∃ a r, x.dropWhile isDigit = a :: r ∧ isSpace a = true) →
      scanDigit x = ((.number, x.takeWhile isDigit), x.dropWhile isDigit) := by
    intro x hx
    rw [scanDigit]
    rcases hx with e | ⟨a, r, e, ha⟩
    · rw [e]
    · rw [e]
      have hn : a ≠ 58 ∧ a ≠ 45 ∧ a ≠ 47 ∧ a ≠ 46 := by
        refine ⟨?_, ?_, ?_, ?_⟩ <;> (rintro rfl; cases ha)
      simp only [if_neg hn.1, hn.2.1, hn.2.2.1, hn.2.2.2, decide_false, Bool.or_self, Bool.false_eq_true, if_false]
  rcases g1.cases with ⟨e1, e2⟩ | ⟨c, a, b, hc, e1, e2, h46, hab⟩
  · rw [over s e1, over t e2, t1]; exact ⟨rfl, g1⟩
  · rw [scanDigit, scanDigit, e1, e2, t1]
    simp only
    by_cases h1 : c = 58
    · rw [if_pos h1, if_pos h1]
      rw [e1, e2] at g1
      obtain ⟨t2, g2⟩ := g1.take time_noSpace
      simp only [t2]
      exact ⟨trivial, g2⟩
    · rw [if_neg h1, if_neg h1]
      by_cases h2 : (decide (c = 45) || decide (c = 47) || decide (c = 46)) = true
      · rw [if_pos h2, if_pos h2]
        obtain ⟨d1, d2, d3⟩ := scanDelim_gap hc hab h46
        simp only [d1, d2]
        exact ⟨trivial, d3⟩
      · rw [if_neg h2, if_neg h2]
        rw [e1, e2] at g1
        exact ⟨rfl, g1⟩

theorem scanAlpha_gap {s t : Bytes} (h : WGap s t) :
    ∃ f a b, scanAlpha s = .ok (f, a) ∧ scanAlpha t = .ok (f, b) ∧ WGap a b := by
  obtain ⟨t1, g1⟩ := h.take alpha_noSpace
  have hk : alphaIsDate (lower (s.takeWhile isAlpha)) (s.dropWhile isAlpha) =
      alphaIsDate (lower (t.takeWhile isAlpha)) (t.dropWhile isAlpha) := by
    rw [t1]
    generalize lower (t.takeWhile isAlpha) = w
    rcases g1.cases with ⟨e1, e2⟩ | ⟨c, a, b, hc, e1, e2, -, -⟩
    · have no : ∀ x : Bytes, (x = [] ∨ ∃ a r, x = a :: r ∧ isSpace a = true) → alphaIsDate w x = .ok false := by
        intro x hx
        rcases hx with rfl | ⟨a, r, rfl, ha⟩
        · rfl
        · have hn : a ≠ 43 ∧ a ≠ 45 ∧ a ≠ 47 ∧ a ≠ 46 := by
            refine ⟨?_, ?_, ?_, ?_⟩ <;> (rintro rfl; cases ha)
          have hda : isDigit a = false := by
            cases hh : isDigit a with
            | false => rfl
            | true => rw [digit_noSpace a hh] at ha; cases ha
          simp only [alphaIsDate, hn.1, hn.2.1, hn.2.2.1, hn.2.2.2, hda, decide_false, Bool.or_self,
            Bool.false_eq_true, if_false]
      rw [no _ e1, no _ e2]
    · rw [e1, e2]; rfl
  have ha : ∃ b, alphaIsDate (lower (t.takeWhile isAlpha)) (t.dropWhile isAlpha) = .ok b := by
    cases t.dropWhile isAlpha with
    | nil => exact ⟨_, rfl⟩
    | cons c r =>
      simp only [alphaIsDate, searchDate_eq, Res.bind_ok]
      split
      · exact ⟨_, rfl⟩
      · split <;> exact ⟨_, rfl⟩
  obtain ⟨x, hx⟩ := ha
  rw [scanAlpha, scanAlpha]
  simp only [hk, hx, Res.bind_ok]
  cases x with
  | true =>
    obtain ⟨t2, g2⟩ := g1.take word_noSpace
    exact ⟨_, _, _, rfl, by simp only [if_true, t1, t2], g2⟩
  | false => exact ⟨_, _, _, rfl, by simp only [Bool.false_eq_true, if_false, t1], g1⟩

theorem scanSign_gap (u : TokenField) (sg : Nat) {s t : Bytes} (h : WGap s t) :
    (scanSign u (sg :: s) = .err .invalid ∧ scanSign u (sg :: t) = .err .invalid) ∨
    ∃ f a b, scanSign u (sg :: s) = .ok (f, a) ∧ scanSign u (sg :: t) = .ok (f, b) ∧ WGap a b := by
  rw [scanSign, scanSign]
  rcases h.trim with ⟨e1, e2⟩ | ⟨c, a, b, hc, e1, e2, h46, hab⟩
  · rw [e1, e2]; exact .inr ⟨_, _, _, rfl, rfl, .nil (by intro b hb; cases hb) (by intro b hb; cases hb)⟩
  · rw [e1, e2]
    have hg : WGap (c :: a) (c :: b) := .cons hc h46 hab
    simp only
    by_cases h1 : isDigit c = true
    · obtain ⟨t2, g2⟩ := hg.take signed_noSpace
      rw [if_pos h1, if_pos h1, t2]
      exact .inr ⟨_, _, _, rfl, rfl, g2⟩
    · rw [if_neg h1, if_neg h1]
      by_cases h2 : isAlpha c = true
      · obtain ⟨t2, g2⟩ := hg.take alpha_noSpace
        rw [if_pos h2, if_pos h2, t2]
        exact .inr ⟨_, _, _, rfl, rfl, g2⟩
      · rw [if_neg h2, if_neg h2]; exact .inl ⟨rfl, rfl⟩

theorem scanField_gap (u : TokenField) {c : Nat} {s t : Bytes} (hc : isSpace c = false)
    (h46 : c = 46 → (s = [] ↔ t = [])) (h : WGap s t) :
    (scanField u c (c :: s) = .err .invalid ∧ scanField u c (c :: t) = .err .invalid) ∨
    ∃ f a b, scanField u c (c :: s) = .ok (f, a) ∧ scanField u c (c :: t) = .ok (f, b) ∧ WGap a b := by
  have hg : WGap (c :: s) (c :: t) := .cons hc h46 h
  rw [scanField, scanField]
  by_cases h1 : isDigit c = true
  · rw [if_pos h1, if_pos h1]
    obtain ⟨e, g⟩ := scanDigit_gap hg
    exact .inr ⟨(scanDigit (c :: t)).1, (scanDigit (c :: s)).2, (scanDigit (c :: t)).2, by rw [← e], rfl, g⟩
  · rw [if_neg h1, if_neg h1]
    by_cases h2 : c = 46
    · rw [if_pos h2, if_pos h2]
      obtain ⟨e, g⟩ := h.take digit_noSpace
      exact .inr ⟨_, _, _, rfl, by rw [scanDot, e], g⟩
    · rw [if_neg h2, if_neg h2]
      by_cases h3 : isAlpha c = true
      · rw [if_pos h3, if_pos h3]; exact .inr (scanAlpha_gap hg)
      · rw [if_neg h3, if_neg h3]; exact scanSign_gap u c h

/-- Enough iterations are enough. -/
theorem scanLoop_gap (u : TokenField) (m n : Nat) (s t : Bytes) (cap nf : Nat) (h : WGap s t)
    (hm : s.length < m) (hn : t.length < n) : scanLoop u m s cap nf = scanLoop u n t cap nf := by
  induction m generalizing n s t cap nf with
  | zero => omega
  | succ m ih =>
    obtain ⟨n, rfl⟩ : ∃ k, n = k + 1 := ⟨n - 1, by omega⟩
    have l1 : (s.dropWhile isSpace).length ≤ s.length := (List.dropWhile_suffix _).length_le
    have l2 : (t.dropWhile isSpace).length ≤ t.length := (List.dropWhile_suffix _).length_le
    rw [scanLoop, scanLoop]
    rcases h.trim with ⟨e1, e2⟩ | ⟨c, a, b, hc, e1, e2, h46, hab⟩
    · rw [e1, e2]
    · rw [e1] at l1 ⊢
      rw [e2] at l2 ⊢
      simp only [List.length_cons] at l1 l2 ⊢
      by_cases h0 : nf ≥ 25
      · rw [if_pos h0, if_pos h0]
      · rw [if_neg h0, if_neg h0]
        by_cases h1 : (isDigit c || decide (c = 46) || isAlpha c || decide (c = 43) || decide (c = 45)) = true
        · rw [if_pos h1, if_pos h1]
          by_cases h2 : cap = 0
          · rw [if_pos h2, if_pos h2]
          · rw [if_neg h2, if_neg h2]
            rcases scanField_gap u hc h46 hab with ⟨x1, x2⟩ | ⟨f, r1, r2, x1, x2, g⟩
            · rw [x1, x2]; rfl
            · have q1 : r1.length ≤ a.length := by
                rcases scanField_spec u a h1 with y | ⟨f', rest, used, y1, y2, y3, y4⟩
                · rw [x1] at y; cases y
                · rw [x1] at y1
                  cases y1
                  have := congrArg List.length y2
                  rw [List.length_append, List.length_cons] at this
                  have k1 := y3.length
                  have k2 : 0 < f.2.length := List.length_pos_iff.mpr y4
                  omega
              have q2 : r2.length ≤ b.length := by
                rcases scanField_spec u b h1 with y | ⟨f', rest, used, y1, y2, y3, y4⟩
                · rw [x2] at y; cases y
                · rw [x2] at y1
                  cases y1
                  have := congrArg List.length y2
                  rw [List.length_append, List.length_cons] at this
                  have k1 := y3.length
                  have k2 : 0 < f.2.length := List.length_pos_iff.mpr y4
                  omega
              rw [x1, x2, Res.bind_ok, Res.bind_ok]
              simp only
              rw [ih n r1 r2 (cap - f.2.length) (nf + 1) g (by omega) (by omega)]
        · rw [if_neg h1, if_neg h1]
          by_cases h2 : isPunct c = true
          · rw [if_pos h2, if_pos h2]
            obtain ⟨-, g⟩ := (WGap.cons hc h46 hab).take punct_noSpace
            have q1 : ((c :: a).dropWhile isPunct).length ≤ a.length := by
              rw [List.dropWhile_cons_of_pos h2]; exact (List.dropWhile_suffix _).length_le
            have q2 : ((c :: b).dropWhile isPunct).length ≤ b.length := by
              rw [List.dropWhile_cons_of_pos h2]; exact (List.dropWhile_suffix _).length_le
            exact ih n _ _ cap nf g (by omega) (by omega)
          · rw [if_neg h2, if_neg h2]

theorem scanLoop_space (u : TokenField) (m : Nat) {w : Bytes} (hw : Spaces w) (s : Bytes) (cap nf : Nat) :
    scanLoop u m (w ++ s) cap nf = scanLoop u m s cap nf := by
  cases m with
  | zero => rfl
  | succ m => rw [scanLoop, scanLoop, hw.drop]

theorem white_eq (b : Nat) : White b = isSpace b := rfl

theorem words_space {c : Nat} (h : isSpace c = true) (s : Bytes) : words (c :: s) = words s := by
  have h : White c = true := h
  rw [words.eq_def]; simp only; rw [if_pos h]

theorem words_spaces {w : Bytes} (hw : Spaces w) (s : Bytes) : words (w ++ s) = words s := by
  induction w with
  | nil => rfl
  | cons a w ih =>
    rw [List.cons_append, words_space (hw a (List.mem_cons_self ..))]
    exact ih fun b hb => hw b (List.mem_cons_of_mem _ hb)

theorem takeSpaces (s : Bytes) : Spaces (s.takeWhile isSpace) := fun b hb =>
  List.all_eq_true.mp (List.all_takeWhile (l := s) (p := isSpace)) b hb

theorem words_trim (s : Bytes) : words (s.dropWhile isSpace) = words s := by
  have := words_spaces (takeSpaces s) (s.dropWhile isSpace)
  rwa [List.takeWhile_append_dropWhile, eq_comm] at this

/-- A word ends here. -/
def Over (s : Bytes) : Prop := s = [] ∨ ∃ a r, s = a :: r ∧ isSpace a = true

theorem not_over {s : Bytes} (h : ¬ Over s) : ∃ a r, s = a :: r ∧ isSpace a = false := by
  cases s with
  | nil => exact absurd (.inl rfl) h
  | cons a r =>
    refine ⟨a, r, rfl, ?_⟩
    cases ha : isSpace a with
    | false => rfl
    | true => exact absurd (.inr ⟨a, r, rfl, ha⟩) h

theorem words_over {c : Nat} (h : isSpace c = false) {s : Bytes} (hs : Over s) :
    words (c :: s) = [c] :: words s := by
  have hc : ¬ White c = true := by rw [white_eq, h]; simp
  rcases hs with rfl | ⟨a, r, rfl, ha⟩
  · rw [words.eq_def]; simp only; rw [if_neg hc]; rfl
  · have ha : White a = true := ha
    rw [words.eq_def]; simp only; rw [if_neg hc, if_pos ha]

theorem words_cons {c a : Nat} (h : isSpace c = false) (ha : isSpace a = false) (r : Bytes) :
    words (c :: a :: r) = match words (a :: r) with
      | [] => [[c]]
      | w :: l => (c :: w) :: l := by
  have hc : ¬ White c = true := by rw [white_eq, h]; simp
  have hb : ¬ White a = true := by rw [white_eq, ha]; simp
  rw [words.eq_def]; simp only; rw [if_neg hc, if_neg hb]
  cases words (a :: r) <;> rfl

theorem words_head {c : Nat} (h : isSpace c = false) (s : Bytes) :
    ∃ w l, words (c :: s) = (c :: w) :: l ∧ (¬ Over s → w ≠ [] ∧ words s = w :: l) := by
  induction s generalizing c with
  | nil => exact ⟨[], [], words_over h (.inl rfl), fun hn => absurd (.inl rfl) hn⟩
  | cons a r ih =>
    by_cases ha : isSpace a = true
    · exact ⟨[], _, words_over h (.inr ⟨a, r, rfl, ha⟩), fun hn => absurd (.inr ⟨a, r, rfl, ha⟩) hn⟩
    · have ha' : isSpace a = false := by simpa using ha
      obtain ⟨w, l, e, -⟩ := ih ha'
      refine ⟨a :: w, l, ?_, fun _ => ⟨by simp, e⟩⟩
      rw [words_cons h ha', e]

theorem words_nil {s : Bytes} (h : words s = []) : Spaces s := by
  induction s with
  | nil => intro b hb; cases hb
  | cons a r ih =>
    by_cases ha : isSpace a = true
    · rw [words_space ha] at h
      intro b hb
      rcases List.mem_cons.mp hb with rfl | hb
      · exact ha
      · exact ih h b hb
    · obtain ⟨w, l, e, -⟩ := words_head (by simpa using ha) r
      rw [e] at h; cases h

theorem endsInDot_cons {c : Nat} {r : Bytes} (h : r ≠ []) : EndsInDot (c :: r) ↔ EndsInDot r := by
  unfold EndsInDot
  rw [List.getLast?_cons]
  cases r with
  | nil => exact absurd rfl h
  | cons a r => rw [List.getLast?_cons]; simp

theorem endsInDot_append {v r : Bytes} (h : r ≠ []) : EndsInDot (v ++ r) ↔ EndsInDot r := by
  induction v with
  | nil => rfl
  | cons a v ih => rw [List.cons_append, endsInDot_cons (by simp [h])]; exact ih

theorem endsInDot_trim {s : Bytes} (h : s.dropWhile isSpace ≠ []) :
    EndsInDot (s.dropWhile isSpace) ↔ EndsInDot s := by
  have := endsInDot_append (v := s.takeWhile isSpace) h
  rw [List.takeWhile_append_dropWhile] at this
  exact this.symm

theorem endsInDot_spaces {c : Nat} {w : Bytes} (hw : Spaces w) (hn : w ≠ []) : ¬ EndsInDot (c :: w) := by
  intro h
  rw [endsInDot_cons hn] at h
  have := hw 46 (List.mem_of_mem_getLast? h)
  cases this

theorem trim_head {s : Bytes} {c : Nat} {r : Bytes} (h : s.dropWhile isSpace = c :: r) : isSpace c = false := by
  cases hc : isSpace c with
  | false => rfl
  | true =>
    have := List.head?_dropWhile_not isSpace s
    rw [h] at this
    simp [hc] at this

theorem WGap.of_words (n : Nat) (s t : Bytes) (hn : s.length ≤ n) (h : words s = words t)
    (hd : EndsInDot s ↔ EndsInDot t) : WGap (s.dropWhile isSpace) (t.dropWhile isSpace) := by
  induction n generalizing s t with
  | zero =>
    have : s = [] := List.length_eq_zero_iff.mp (by omega)
    subst this
    have ht : words t = [] := h.symm
    rw [dropWhile_all (words_nil ht)]
    exact .nil (by intro b hb; cases hb) (by intro b hb; cases hb)
  | succ n ih =>
    have hl : (s.dropWhile isSpace).length ≤ s.length := (List.dropWhile_suffix _).length_le
    rw [← words_trim s, ← words_trim t] at h
    cases hs : s.dropWhile isSpace with
    | nil =>
      rw [hs] at h
      exact .nil (by intro b hb; cases hb) (words_nil h.symm)
    | cons c r =>
      have hc := trim_head hs
      rw [hs] at h hl
      simp only [List.length_cons] at hl
      cases ht : t.dropWhile isSpace with
      | nil =>
        rw [ht] at h
        exact .nil (words_nil h) (by intro b hb; cases hb)
      | cons c' r' =>
        have hc' := trim_head ht
        rw [ht] at h
        have hd' : EndsInDot (c :: r) ↔ EndsInDot (c' :: r') := by
          rw [← hs, ← ht, endsInDot_trim (by rw [hs]; simp), endsInDot_trim (by rw [ht]; simp)]
          exact hd
        obtain ⟨w, l, e, en⟩ := words_head hc r
        obtain ⟨w', l', e', en'⟩ := words_head hc' r'
        have hcc : c = c' := by rw [e, e'] at h; injection h with h1 _; injection h1
        subst hcc
        by_cases ho : Over r
        · have ho' : Over r' := by
            refine Classical.byContradiction fun hno => ?_
            have := (en' hno).1
            rw [words_over hc ho, e'] at h
            injection h with h1 _; injection h1 with _ h2
            exact this h2.symm
          have hw : words r = words r' := by
            rw [words_over hc ho, words_over hc ho'] at h
            injection h
          refine .cons hc ?_ ?_
          · rintro rfl
            constructor
            · rintro rfl
              have hsp : Spaces r' := words_nil hw.symm
              refine Classical.byContradiction fun hne => ?_
              exact endsInDot_spaces hsp hne (hd'.1 rfl)
            · rintro rfl
              have hsp : Spaces r := words_nil hw
              refine Classical.byContradiction fun hne => ?_
              exact endsInDot_spaces hsp hne (hd'.2 rfl)
          · by_cases hr : r = []
            · subst hr
              exact .nil (by intro b hb; cases hb) (words_nil hw.symm)
            · by_cases hr' : r' = []
              · subst hr'
                exact .nil (words_nil hw) (by intro b hb; cases hb)
              · rw [endsInDot_cons hr, endsInDot_cons hr'] at hd'
                have g := ih r r' (by omega) hw hd'
                have ne : ∀ {x : Bytes}, Over x → x ≠ [] → x.takeWhile isSpace ≠ [] := by
                  intro x hx hy
                  rcases hx with rfl | ⟨a, r, rfl, ha⟩
                  · exact absurd rfl hy
                  · rw [List.takeWhile_cons_of_pos ha]; simp
                have := WGap.gap (takeSpaces r) (ne ho hr) (takeSpaces r') (ne ho' hr') g
                rwa [List.takeWhile_append_dropWhile, List.takeWhile_append_dropWhile] at this
        · have ho' : ¬ Over r' := by
            intro hno
            have := (en ho).1
            rw [words_over hc hno, e] at h
            injection h with h1 _; injection h1 with _ h2
            exact this h2
          have hw : words r = words r' := by
            rw [(en ho).2, (en' ho').2]
            rw [e, e'] at h
            injection h with h1 h3; injection h1 with _ h2
            rw [h2, h3]
          obtain ⟨a, x, rfl, ha⟩ := not_over ho
          obtain ⟨a', x', rfl, ha'⟩ := not_over ho'
          rw [endsInDot_cons (r := a :: x) (by simp), endsInDot_cons (r := a' :: x') (by simp)] at hd'
          have g := ih _ _ (by omega) hw hd'
          rw [List.dropWhile_cons_of_neg (by rw [ha]; simp), List.dropWhile_cons_of_neg (by rw [ha']; simp)] at g
          exact .cons hc (fun _ => by simp) g

/-- Texts with the same words are split into the same fields. -/
theorem scan_words (u : TokenField) {s t : Bytes} (hs : s ≠ []) (ht : t ≠ []) (h : words s = words t)
    (hd : EndsInDot s ↔ EndsInDot t) : scan u s = scan u t := by
  have g := WGap.of_words s.length s t (Nat.le_refl _) h hd
  have l1 : (s.dropWhile isSpace).length ≤ s.length := (List.dropWhile_suffix _).length_le
  have l2 : (t.dropWhile isSpace).length ≤ t.length := (List.dropWhile_suffix _).length_le
  rw [scan, scan, if_neg (by simpa using hs), if_neg (by simpa using ht)]
  have e1 := scanLoop_space u (s.length + 1) (takeSpaces s) (s.dropWhile isSpace) 128 0
  have e2 := scanLoop_space u (t.length + 1) (takeSpaces t) (t.dropWhile isSpace) 128 0
  rw [List.takeWhile_append_dropWhile] at e1 e2
  rw [e1, e2]
  exact scanLoop_gap u _ _ _ _ _ _ g (by omega) (by omega)

end Pg
