import Verif.Spec.NearYear
import Verif.Lemmas.YearSafe
import Verif.Lemmas.LetterCase

/-! # The numbers of the scanner are runs of digits -/

namespace Pg
open Spec

/-- No run of digits goes on from `a` to `c`. -/
def DigitsApart (a c : Bytes) : Prop := (∀ l, a.getLast? = some l → isDigit l = false) ∨ Stops isDigit c

theorem apart_of {a c : Bytes} (h : ∀ b ∈ a, isDigit b = false) : DigitsApart a c :=
  Or.inl fun l hl => h l (List.mem_of_getLast? hl)

theorem DigitsApart.append {a b c : Bytes} (h : DigitsApart b c) (hb : b ≠ []) : DigitsApart (a ++ b) c := by
  rcases h with h | h
  · refine Or.inl fun l hl => h l ?_
    rw [List.getLast?_append_of_ne_nil _ hb] at hl
    exact hl
  · exact Or.inr h

theorem alpha_notDigit {b : Nat} (h : isAlpha b = true) : isDigit b = false := by
  rw [isAlpha_iff] at h
  rw [Bool.eq_false_iff, ne_eq, isDigit_iff]; omega

theorem space_notDigit {b : Nat} (h : isSpace b = true) : isDigit b = false := by
  rcases space_cases h with rfl | rfl | rfl | rfl | rfl <;> rfl

theorem punct_notDigit {b : Nat} (h : isPunct b = true) : isDigit b = false := by
  rw [isPunct_iff] at h
  rw [Bool.eq_false_iff, ne_eq, isDigit_iff]; omega

/-- What a number or a date is made from. -/
structure Piece (s : Bytes) (f : Field) : Prop where
  digits : f.1 = .number → (∀ b ∈ f.2, isDigit b = true ∨ b = 46) ∨ Lone f.2
  head : (∃ b, f.2.head? = some b ∧ (isAlnum b = true ∨ b = 46)) ∨ Lone f.2
  text : ∃ used rest, s = used ++ rest ∧ lower f.2 = lower used ∧ Stops isDigit rest ∧ ∀ b ∈ used, isWordB b = true

theorem digit_wordB {b : Nat} (h : isDigit b = true) : isWordB b = true := by simp [isWordB, isAlnum, h]
theorem alnum_wordB {b : Nat} (h : isAlnum b = true) : isWordB b = true := by simp [isWordB, h]

/-- What the scanner takes after digits and a delimiter. -/
theorem delim_piece {d : Nat} (hd : d = 45 ∨ d = 47 ∨ d = 46) (s : Bytes) :
    ∃ used, d :: s = used ++ (scanDelim d s).2.2 ∧ lower (scanDelim d s).2.1 = lower used ∧ Stops isDigit (scanDelim d s).2.2 ∧ used ≠ [] ∧
      (∀ b ∈ used, isWordB b = true) ∧ ((scanDelim d s).1 = .number → ∀ b ∈ (scanDelim d s).2.1, isDigit b = true ∨ b = 46) := by
  have hw : isWordB d = true := by rcases hd with rfl | rfl | rfl <;> rfl
  unfold scanDelim
  cases s with
  | nil =>
    refine ⟨[d], rfl, rfl, Stops.nil _, by simp, by simpa using hw, ?_⟩
    dsimp only
    split
    · intro _ b hb; right; rw [List.mem_singleton.1 hb]; assumption
    · intro h; cases h
  | cons c r =>
    simp only
    split
    · split
      · refine ⟨d :: ((c :: r).takeWhile isDigit ++ ((c :: r).dropWhile isDigit).takeWhile fun b => b = d || isDigit b), ?_, rfl, ?_, by simp, ?_, ?_⟩
        · simp only [List.cons_append, List.append_assoc, List.takeWhile_append_dropWhile]
        · exact (stops_drop _ _).weaken fun b hb => by simp [hb]
        · intro b hb
          rcases List.mem_cons.1 hb with rfl | hb
          · exact hw
          · rcases List.mem_append.1 hb with hb | hb
            · exact digit_wordB (all_take _ _ b hb)
            · have := all_take _ _ b hb
              simp only [Bool.or_eq_true, decide_eq_true_eq] at this
              rcases this with rfl | this
              · exact hw
              · exact digit_wordB this
        · intro h; cases h
      · refine ⟨d :: (c :: r).takeWhile isDigit, ?_, rfl, stops_drop _ _, by simp, ?_, ?_⟩
        · simp only [List.cons_append, List.takeWhile_append_dropWhile]
        · intro b hb
          rcases List.mem_cons.1 hb with rfl | hb
          · exact hw
          · exact digit_wordB (all_take _ _ b hb)
        · dsimp only
          split
          · intro _ b hb
            rcases List.mem_cons.1 hb with rfl | hb
            · right; assumption
            · exact Or.inl (all_take _ _ b hb)
          · intro h; cases h
    · refine ⟨d :: (c :: r).takeWhile fun b => b = d || isAlnum b, ?_, ?_, ?_, by simp, ?_, fun h => by cases h⟩
      · simp only [List.cons_append, List.takeWhile_append_dropWhile]
      · show lower (d :: lower _) = lower (d :: _)
        rw [show ∀ x : Bytes, lower (d :: x) = lowerB d :: lower x from fun _ => rfl, lower_idem]
        rfl
      · exact (stops_drop _ _).weaken fun b hb => by simp [isAlnum, hb]
      · intro b hb
        rcases List.mem_cons.1 hb with rfl | hb
        · exact hw
        · have := all_take _ _ b hb
          simp only [Bool.or_eq_true, decide_eq_true_eq] at this
          rcases this with rfl | this
          · exact hw
          · exact alnum_wordB this

theorem field_piece {u : TokenField} {c : Nat} {r : Bytes} {f : Field} {rest : Bytes} (hc : startB c = true)
    (h : scanField u c (c :: r) = .ok (f, rest)) :
    (∃ used, c :: r = used ++ rest ∧ DigitsApart used rest ∧ used ≠ []) ∧ (f.1 = .number ∨ f.1 = .date → Piece (c :: r) f) := by
  unfold scanField at h
  split at h
  · rename_i hd
    injection h with h
    obtain rfl : (scanDigit (c :: r)).1 = f := congrArg Prod.fst h
    obtain rfl : (scanDigit (c :: r)).2 = rest := congrArg Prod.snd h
    clear h
    unfold scanDigit
    have hp : ∀ b ∈ (c :: r).takeWhile isDigit, isDigit b = true := fun b hb => all_take _ _ b hb
    have hhead : ((c :: r).takeWhile isDigit).head? = some c := by rw [List.takeWhile_cons_of_pos hd]; rfl
    have e0 := List.takeWhile_append_dropWhile (p := isDigit) (l := c :: r)
    have hst := stops_drop isDigit (c :: r)
    generalize hx : (c :: r).takeWhile isDigit = x at *
    generalize hy : (c :: r).dropWhile isDigit = y at *
    have hne : x ≠ [] := by rintro rfl; cases hhead
    have hal : isAlnum c = true := by simp [isAlnum, hd]
    have plain : Piece (c :: r) (.number, x) := ⟨fun _ => Or.inl fun b hb => Or.inl (hp b hb), Or.inl ⟨c, hhead, Or.inl hal⟩,
      ⟨x, y, e0.symm, rfl, hst, fun b hb => digit_wordB (hp b hb)⟩⟩
    simp only
    split
    · rw [List.append_nil] at e0
      exact ⟨⟨x, by simp [e0], Or.inr (Stops.nil _), hne⟩, fun _ => plain⟩
    · rename_i c' r'
      split
      · refine ⟨⟨x ++ (c' :: r').takeWhile isTimeB, ?_, Or.inr ?_, by simp [hne]⟩, fun h => ?_⟩
        · rw [List.append_assoc, List.takeWhile_append_dropWhile, e0]
        · exact (stops_drop _ _).weaken fun b hb => by simp [isTimeB, hb]
        · rcases h with h | h <;> cases h
      · split
        · rename_i hs
          have hd' : c' = 45 ∨ c' = 47 ∨ c' = 46 := by
            simp only [Bool.or_eq_true, decide_eq_true_eq] at hs
            rcases hs with (rfl | rfl) | rfl <;> simp
          obtain ⟨used, h1, h2, h3, h4, h5, h6⟩ := delim_piece hd' r'
          have hl : ∀ a b : Bytes, lower (a ++ b) = lower a ++ lower b := fun a b => List.map_append
          refine ⟨⟨x ++ used, ?_, Or.inr h3, by simp [h4]⟩, fun _ => ⟨fun hn => Or.inl fun b hb => ?_, Or.inl ⟨c, ?_, Or.inl hal⟩, ⟨x ++ used, _, ?_, ?_, h3, ?_⟩⟩⟩
          · rw [List.append_assoc, ← h1, e0]
          · rcases List.mem_append.1 hb with hb | hb
            · exact Or.inl (hp b hb)
            · exact h6 hn b hb
          · dsimp only
            rw [List.head?_append, hhead]; rfl
          · rw [List.append_assoc, ← h1, e0]
          · rw [hl, hl, h2]
          · intro b hb
            rcases List.mem_append.1 hb with hb | hb
            · exact digit_wordB (hp b hb)
            · exact h5 b hb
        · exact ⟨⟨x, e0.symm, Or.inr hst, hne⟩, fun _ => plain⟩
  · rename_i hnd
    split at h
    · rename_i h46
      cases h
      refine ⟨⟨c :: r.takeWhile isDigit, ?_, Or.inr (stops_drop _ _), by simp⟩, fun _ =>
        ⟨fun _ => Or.inl fun b hb => ?_, Or.inl ⟨c, rfl, Or.inr h46⟩, ⟨c :: r.takeWhile isDigit, r.dropWhile isDigit, ?_, rfl, stops_drop _ _, fun b hb => ?_⟩⟩⟩
      · show c :: r = c :: r.takeWhile isDigit ++ r.dropWhile isDigit
        rw [List.cons_append, List.takeWhile_append_dropWhile]
      · rcases List.mem_cons.1 hb with rfl | hb
        · exact Or.inr h46
        · exact Or.inl (all_take _ _ b hb)
      · rw [List.cons_append, List.takeWhile_append_dropWhile]
      · rcases List.mem_cons.1 hb with rfl | hb
        · rw [h46]; rfl
        · exact digit_wordB (all_take _ _ b hb)
    · rename_i hn46
      split at h
      · rename_i ha
        unfold scanAlpha at h
        have hl : Letters ((c :: r).takeWhile isAlpha) := all_take _ _
        have hhead : ((c :: r).takeWhile isAlpha).head? = some c := by rw [List.takeWhile_cons_of_pos ha]; rfl
        have e0 := List.takeWhile_append_dropWhile (p := isAlpha) (l := c :: r)
        generalize hx : (c :: r).takeWhile isAlpha = x at *
        generalize hy : (c :: r).dropWhile isAlpha = y at *
        have hne : x ≠ [] := by rintro rfl; cases hhead
        simp only at h
        rw [Res.bind_eq_ok] at h
        obtain ⟨b, -, h⟩ := h
        cases b with
        | true =>
          cases h
          have hlo : ∀ a b : Bytes, lower (a ++ b) = lower a ++ lower b := fun a b => List.map_append
          have hst : Stops isDigit (y.dropWhile isWordB) := (stops_drop _ _).weaken fun b hb => digit_wordB hb
          refine ⟨⟨x ++ y.takeWhile isWordB, ?_, Or.inr hst, by simp [hne]⟩, fun _ => ⟨fun hn => (by cases hn), Or.inl ⟨lowerB c, ?_, Or.inl ?_⟩,
            ⟨x ++ y.takeWhile isWordB, y.dropWhile isWordB, ?_, ?_, hst, fun b hb => ?_⟩⟩⟩
          · rw [List.append_assoc, List.takeWhile_append_dropWhile, e0]
          · dsimp only
            rw [List.head?_append, lower, List.head?_map, hhead]; rfl
          · unfold lowerB isUpper
            simp only [isAlnum, isDigit, Bool.or_eq_true, isAlpha_iff, Bool.and_eq_true, decide_eq_true_eq]
            rw [isAlpha_iff] at ha
            split <;> omega
          · rw [List.append_assoc, List.takeWhile_append_dropWhile, e0]
          · dsimp only
            rw [hlo, hlo, lower_idem]
          · rcases List.mem_append.1 hb with hb | hb
            · exact alnum_wordB (by simp [isAlnum, hl b hb])
            · exact all_take _ _ b hb
        | false =>
          cases h
          refine ⟨⟨x, e0.symm, Or.inl fun l hl' => alpha_notDigit (hl l (List.mem_of_getLast? hl')), hne⟩, fun h => ?_⟩
          rcases h with h | h <;> cases h
      · rename_i hna
        have hsg : c = 43 ∨ c = 45 := by
          unfold startB at hc
          simpa [hnd, hn46, hna] using hc
        unfold scanSign at h
        simp only at h
        have e0 := List.takeWhile_append_dropWhile (p := isSpace) (l := r)
        have hsp : ∀ b ∈ r.takeWhile isSpace, isSpace b = true := all_take _ _
        generalize hx : r.takeWhile isSpace = x at *
        generalize hy : r.dropWhile isSpace = y at *
        split at h
        · cases h
          rw [List.append_nil] at e0
          have hlone : Lone [c] := by rcases hsg with rfl | rfl; exacts [Or.inl rfl, Or.inr rfl]
          refine ⟨⟨c :: r, by simp, Or.inr (Stops.nil _), by simp⟩, fun _ => ⟨fun _ => Or.inr hlone, Or.inr hlone, ⟨[c], r, rfl, rfl, ?_, ?_⟩⟩⟩
          · cases r with
            | nil => exact Stops.nil _
            | cons b r => exact Stops.cons (space_notDigit (hsp b (by rw [e0]; simp)))
          · intro b hb
            rw [List.mem_singleton.1 hb]
            rcases hsg with rfl | rfl <;> rfl
        · rename_i c' r'
          split at h
          · rename_i hd'
            cases h
            refine ⟨⟨c :: (x ++ (c' :: r').takeWhile isSignedB), ?_, Or.inr ?_, by simp⟩, fun h => ?_⟩
            · rw [List.cons_append, List.append_assoc, List.takeWhile_append_dropWhile, e0]
            · exact (stops_drop _ _).weaken fun b hb => by simp [isSignedB, hb]
            · rcases h with h | h <;> cases h
          · split at h
            · rename_i ha'
              cases h
              refine ⟨⟨c :: (x ++ (c' :: r').takeWhile isAlpha), ?_, ?_, by simp⟩, fun h => ?_⟩
              · rw [List.cons_append, List.append_assoc, List.takeWhile_append_dropWhile, e0]
              · refine Or.inl fun l hl => ?_
                have hne : (c' :: r').takeWhile isAlpha ≠ [] := by rw [List.takeWhile_cons_of_pos ha']; simp
                rw [← List.cons_append, List.getLast?_append_of_ne_nil _ hne] at hl
                exact alpha_notDigit (all_take _ _ l (List.mem_of_getLast? hl))
              · rcases h with h | h <;> cases h
            · cases h

/-- What holds for each field the scanner makes. -/
theorem scanLoop_pieces {u : TokenField} {full : Bytes} {P : Field → Prop}
    (hP : ∀ a s f, full = a ++ s → DigitsApart a s → (f.1 = .number ∨ f.1 = .date → Piece s f) → P f) :
    ∀ (fuel : Nat) (s : Bytes) (cap nf : Nat) (l : List Field) (a : Bytes), full = a ++ s → DigitsApart a s →
      scanLoop u fuel s cap nf = .ok l → ∀ f ∈ l, P f := by
  intro fuel
  induction fuel with
  | zero => intro s cap nf l a _ _ h; rw [scanLoop] at h; cases h; simp
  | succ n ih =>
    intro s cap nf l a he hc h
    rw [scanLoop] at h
    have e0 := List.takeWhile_append_dropWhile (p := isSpace) (l := s)
    have hsp : ∀ b ∈ s.takeWhile isSpace, isSpace b = true := all_take _ _
    generalize hx : s.takeWhile isSpace = x at *
    generalize hy : s.dropWhile isSpace = y at *
    have he' : full = (a ++ x) ++ y := by rw [he, ← e0, List.append_assoc]
    have hc' : DigitsApart (a ++ x) y := by
      by_cases hx0 : x = []
      · rw [hx0, List.append_nil]
        rw [hx0, List.nil_append] at e0
        rw [e0]; exact hc
      · exact (apart_of fun b hb => space_notDigit (hsp b hb)).append hx0
    split at h
    · cases h; simp
    · rename_i c r
      split at h
      · cases h
      · split at h
        · rename_i hst
          split at h
          · cases h
          · rw [Res.bind_eq_ok] at h
            obtain ⟨⟨f, rest⟩, hf, h⟩ := h
            simp only at h
            split at h
            · cases h
            · rw [Res.bind_eq_ok] at h
              obtain ⟨l', hl, h⟩ := h
              cases h
              obtain ⟨⟨used, h1, h2, h3⟩, h4⟩ := field_piece (u := u) hst hf
              intro g hg
              rcases List.mem_cons.1 hg with rfl | hg
              · exact hP _ _ _ he' hc' h4
              · exact ih rest _ _ _ (a ++ x ++ used) (by rw [he', h1]; simp [List.append_assoc]) (h2.append h3) hl g hg
        · split at h
          · rename_i hpu
            have e1 := List.takeWhile_append_dropWhile (p := isPunct) (l := c :: r)
            have hne : (c :: r).takeWhile isPunct ≠ [] := by rw [List.takeWhile_cons_of_pos hpu]; simp
            refine ih _ _ _ _ (a ++ x ++ (c :: r).takeWhile isPunct) ?_ ?_ h
            · rw [he', List.append_assoc (a ++ x), e1]
            · exact (apart_of fun b hb => punct_notDigit (all_take _ _ b hb)).append hne
          · cases h

theorem scan_pieces {u : TokenField} {s : Bytes} {P : Field → Prop}
    (hP : ∀ a t f, s = a ++ t → DigitsApart a t → (f.1 = .number ∨ f.1 = .date → Piece t f) → P f) {l : List Field} (h : scan u s = .ok l) :
    ∀ f ∈ l, P f := by
  unfold scan at h
  split at h
  · cases h
  · exact scanLoop_pieces hP _ s _ _ _ [] rfl (apart_of (by simp)) h

/-! ## The pieces of a date -/

/-- `w` is a run of digits within `t`. -/
structure RunIn (w t x y : Bytes) : Prop where
  text : t = x ++ (w ++ y)
  some : w ≠ []
  digits : ∀ b ∈ w, isDigit b = true
  left : ∀ l, x.getLast? = Option.some l → isDigit l = false
  right : Stops isDigit y

theorem DigitsApart.left {a : Bytes} {w c : Bytes} (h : DigitsApart a (w ++ c)) (hw : w ≠ []) (hd : ∀ b ∈ w, isDigit b = true) :
    ∀ l, a.getLast? = some l → isDigit l = false := by
  rcases h with h | h
  · exact h
  · obtain ⟨b, w, rfl⟩ := List.exists_cons_of_ne_nil hw
    have := h b rfl
    rw [hd b (by simp)] at this; cases this

theorem figure_iff {b : Nat} : Figure b ↔ isDigit b = true := (isDigit_iff b).symm

/-- A run of digits within a field is one of the text. -/
theorem run_text {s a t used rest w x y : Bytes} (hs : s = a ++ t) (ha : DigitsApart a t) (ht : t = used ++ rest) (hr : Stops isDigit rest)
    (h : RunIn w used x y) : DigitRun w s := by
  refine ⟨a ++ x, y ++ rest, by rw [hs, ht, h.text]; simp [List.append_assoc], h.some, fun b hb => figure_iff.2 (h.digits b hb), fun l hl => ?_, fun l hl => ?_⟩
  · rw [figure_iff, Bool.not_eq_true]
    by_cases hx : x = []
    · subst hx
      rw [List.append_nil] at hl
      refine DigitsApart.left (w := w) (c := y ++ rest) ?_ h.some h.digits l hl
      rw [ht, h.text] at ha
      simpa [List.append_assoc] using ha
    · rw [List.getLast?_append_of_ne_nil _ hx] at hl
      exact h.left l hl
  · rw [figure_iff, Bool.not_eq_true]
    cases y with
    | nil => exact hr l hl
    | cons b y => exact h.right l hl

/-- The pieces that are numbers are runs of digits, and in a date of numbers every piece but the last is joined to something. -/
theorem split_runs {full : Bytes} : ∀ (n : Nat) (w : Bytes) (k : Nat) (l : List Bytes) (pre : Bytes), full = pre ++ w → DigitsApart pre w →
    dateSplit n w k = .ok l →
      (∀ f ∈ l, (f.head?.map isAlpha) ≠ some true → ∃ x y, RunIn f full x y) ∧
      ((∀ f ∈ l, (f.head?.map isAlpha) ≠ some true) → ∀ f ∈ l.dropLast, ∃ x j y, RunIn f full x (j :: y) ∧ isAlnum j = false) := by
  intro n
  induction n with
  | zero => intro w k l pre _ _ h; rw [dateSplit] at h; cases h; simp
  | succ n ih =>
    intro w k l pre hf ha h
    rw [dateSplit] at h
    split at h
    · cases h; simp
    · have e0 := List.takeWhile_append_dropWhile (p := fun b => decide (¬ isAlnum b = true)) (l := w)
      have hno : ∀ b ∈ w.takeWhile (fun b => decide (¬ isAlnum b = true)), isAlnum b = false := fun b hb => by
        simpa using all_take _ _ b hb
      have hst := stops_drop (fun b => decide (¬ isAlnum b = true)) w
      generalize w.takeWhile (fun b => decide (¬ isAlnum b = true)) = u at *
      generalize w.dropWhile (fun b => decide (¬ isAlnum b = true)) = v at *
      split at h
      · cases h
      · rename_i c r
        have hc : isAlnum c = true := by simpa using hst c rfl
        have hf' : full = (pre ++ u) ++ (c :: r) := by rw [hf, ← e0, List.append_assoc]
        have ha' : DigitsApart (pre ++ u) (c :: r) := by
          by_cases hu : u = []
          · rw [hu, List.append_nil]
            rw [hu, List.nil_append] at e0
            rw [e0]; exact ha
          · refine (apart_of fun b hb => ?_).append hu
            have := hno b hb
            unfold isAlnum at this
            rw [Bool.or_eq_false_iff] at this
            exact this.2
        split at h
        · rename_i hd
          obtain ⟨l', hl, h⟩ := Res.bind_eq_ok.1 h
          cases h
          have e1 := List.takeWhile_append_dropWhile (p := isDigit) (l := c :: r)
          have hdig : ∀ b ∈ (c :: r).takeWhile isDigit, isDigit b = true := all_take _ _
          have hne : (c :: r).takeWhile isDigit ≠ [] := by rw [List.takeWhile_cons_of_pos hd]; simp
          have hst' := stops_drop isDigit (c :: r)
          generalize (c :: r).takeWhile isDigit = x at *
          generalize (c :: r).dropWhile isDigit = y at *
          have hrun : RunIn x full (pre ++ u) y := by
            refine ⟨by rw [hf', e1], hne, hdig, ?_, hst'⟩
            refine DigitsApart.left (w := x) (c := y) ?_ hne hdig
            rw [e1]; exact ha'
          obtain ⟨i1, i2⟩ := ih y (k + 1) l' (pre ++ u ++ x) (by rw [hf', ← e1]; simp [List.append_assoc]) (Or.inr hst') hl
          refine ⟨fun f hf hh => ?_, fun hall f hf => ?_⟩
          · rcases List.mem_cons.1 hf with rfl | hf
            · exact ⟨_, _, hrun⟩
            · exact i1 f hf hh
          · cases l' with
            | nil => simp at hf
            | cons g l' =>
              rw [List.dropLast_cons_of_ne_nil (by simp)] at hf
              rcases List.mem_cons.1 hf with rfl | hf
              · cases y with
                | nil =>
                  cases n with
                  | zero => rw [dateSplit] at hl; cases hl
                  | succ n => rw [dateSplit, if_pos (by simp)] at hl; cases hl
                | cons j y =>
                  refine ⟨_, j, y, hrun, ?_⟩
                  have hj : isDigit j = false := hst' j rfl
                  have hja : isAlpha j = false := by
                    rw [Bool.eq_false_iff]
                    intro hja
                    have hal : isAlnum j = true := by simp [isAlnum, hja]
                    cases n with
                    | zero => rw [dateSplit] at hl; cases hl
                    | succ n =>
                      rw [dateSplit] at hl
                      split at hl
                      · cases hl
                      · rw [List.dropWhile_cons_of_neg (by simpa using hal)] at hl
                        dsimp only at hl
                        rw [if_neg (by simp [hj])] at hl
                        obtain ⟨l2, -, hl⟩ := Res.bind_eq_ok.1 hl
                        injection hl with hl
                        injection hl with hl _
                        have := hall g (by simp)
                        rw [← hl, List.takeWhile_cons_of_pos hja] at this
                        exact this (by simp [hja])
                  simp [isAlnum, hj, hja]
              · exact i2 (fun f hf => hall f (by simp [hf])) f hf
        · rename_i hd
          have hal : isAlpha c = true := by
            unfold isAlnum at hc
            rw [Bool.or_eq_true] at hc
            exact hc.resolve_right hd
          obtain ⟨l', hl, h⟩ := Res.bind_eq_ok.1 h
          cases h
          have e1 := List.takeWhile_append_dropWhile (p := isAlpha) (l := c :: r)
          have hlet : ∀ b ∈ (c :: r).takeWhile isAlpha, isAlpha b = true := all_take _ _
          have hhead : ((c :: r).takeWhile isAlpha).head?.map isAlpha = some true := by
            rw [List.takeWhile_cons_of_pos hal]; simp [hal]
          generalize (c :: r).takeWhile isAlpha = x at *
          generalize (c :: r).dropWhile isAlpha = y at *
          have hne : x ≠ [] := by rintro rfl; cases hhead
          obtain ⟨i1, -⟩ := ih y (k + 1) l' (pre ++ u ++ x) (by rw [hf', ← e1]; simp [List.append_assoc])
            ((apart_of fun b hb => alpha_notDigit (hlet b hb)).append hne) hl
          refine ⟨fun f hf hh => ?_, fun hall => absurd hhead (hall x (by simp))⟩
          rcases List.mem_cons.1 hf with rfl | hf
          · exact absurd hhead hh
          · exact i1 f hf hh

theorem lowerB_digit {b c : Nat} (h : lowerB b = lowerB c) (hc : isDigit c = true) : b = c := by
  have hb : isDigit b = true := by rw [← digit_free b, h, digit_free c]; exact hc
  rw [isDigit_iff] at hb hc
  unfold lowerB isUpper at h
  simp only [Bool.and_eq_true, decide_eq_true_eq] at h
  rw [if_neg (by omega), if_neg (by omega)] at h
  exact h

/-- A run of digits in another letter case. -/
theorem run_case {w t t' x y : Bytes} (h : RunIn w t x y) (e : lower t = lower t') : ∃ x' y', RunIn w t' x' y' ∧ lower y' = lower y := by
  have hx := h.text
  subst hx
  have e' : t'.map lowerB = (x ++ (w ++ y)).map lowerB := e.symm
  rw [List.map_append, List.map_append] at e'
  obtain ⟨x', z, rfl, e1, e2⟩ := List.map_eq_append_iff.1 e'
  obtain ⟨w', y', rfl, e3, e4⟩ := List.map_eq_append_iff.1 e2
  have hw : w' = w := by
    have hd := h.digits
    clear h e e' e2
    induction w' generalizing w with
    | nil => cases w with
      | nil => rfl
      | cons => cases e3
    | cons b w' ih =>
      cases w with
      | nil => cases e3
      | cons c w =>
        injection e3 with e3 e5
        rw [lowerB_digit e3 (hd c (by simp)), ih e5 fun b hb => hd b (by simp [hb])]
  subst hw
  refine ⟨x', y', ⟨rfl, h.some, h.digits, fun l hl => ?_, ?_⟩, e4⟩
  · have : (x.map lowerB).getLast? = some (lowerB l) := by rw [← e1, List.getLast?_map, hl]; rfl
    rw [List.getLast?_map] at this
    cases hg : x.getLast? with
    | none => rw [hg] at this; cases this
    | some l' =>
      rw [hg] at this
      injection this with this
      have := congrArg isDigit this
      rw [digit_free, digit_free, h.left l' hg] at this
      exact this.symm
  · cases y' with
    | nil => exact Stops.nil _
    | cons b y' =>
      cases y with
      | nil => cases e4
      | cons c y =>
        injection e4 with e4 _
        refine Stops.cons ?_
        have := congrArg isDigit e4
        rw [digit_free, digit_free, h.right c rfl] at this
        exact this

theorem str2i32_nonneg {w : Bytes} (h : (∃ b, w.head? = some b ∧ (isAlnum b = true ∨ b = 46)) ∨ Lone w) {a : Int × Bytes}
    (e : str2i32 w = .ok a) : 0 ≤ a.1 := by
  rcases h with ⟨b, hb, hh⟩ | h
  · obtain ⟨r, rfl⟩ : ∃ r, w = b :: r := by
      cases w with
      | nil => cases hb
      | cons c r => injection hb with hb; exact ⟨r, by rw [hb]⟩
    have hd := dotted_head hh
    unfold str2i32 at e
    rw [dropWhile_stop (Stops.cons hd.1)] at e
    dsimp only at e
    split at e
    · cases e; simp
    · have hs : extractSign (b :: r) = (1, b :: r) := by
        unfold extractSign
        split
        · rename_i e'; injection e' with e' _; omega
        · rename_i e'; injection e' with e' _; omega
        · rfl
      rw [hs] at e
      dsimp only at e
      split at e
      · cases e
      · split at e
        · cases e
          rw [foldDigits_eq _ (digits_take _)]
          dsimp only
          omega
        · cases e
  · rw [str2i32_lone h] at e; cases e; simp

/-! ## All fields of a text -/

theorem said_word {s : Bytes} {f : Field} {ty : TokenType} {v : Int} (h : Entry f ty v) (hf : WordAt s f) {t : Bytes}
    (tab : ∀ e ∈ dateTable, e.ty = ty → e.value = v → e.token = t) (hn : t.head? ≠ some 45) (hs : t.map smallLetter = t) : Says [t] s := by
  obtain ⟨e, he, h1, h2, h3, w, h4⟩ := entry_word h hf
  have ht := tab e he h1 h2
  rcases h4 with ⟨h4, h5⟩ | ⟨h4, h5⟩
  · refine ⟨w, h4, t, by simp, ?_⟩
    unfold SameButCase
    rw [hs, ← ht, h3, h5, lower_eq_small, List.map_take]
  · rw [← ht, h3, h5] at hn; exact absurd rfl hn

/-- What the loops need of a field. -/
structure TextField (s : Bytes) (f : Field) : Prop where
  year : YearField (¬ NoYearDay s) (Says [b!"y"] s) f
  date : f.1 = .date → ∀ a, str2i32 f.2 = .ok a → 0 ≤ a.1

theorem scan_year {u : TokenField} {s : Bytes} {l : List Field} (h : scan u s = .ok l) (hB : NearYearDay s) : ∀ f ∈ l, TextField s f := by
  have hcase : ¬ NoYearDay s → ¬ Says [b!"bc"] s ∧ NoFarYear s ∧ (Says [b!"y"] s → ShortNumbers 6 s) := fun hn => hB.resolve_left hn
  have hw := scan_wordAt h
  have hp := scan_pieces (s := s) (P := fun f => f.1 = .number ∨ f.1 = .date → ∃ a t, s = a ++ t ∧ DigitsApart a t ∧ Piece t f)
    (fun a t f e1 e2 e3 hf => ⟨a, t, e1, e2, e3 hf⟩) h
  intro f hf
  refine ⟨⟨fun hn => ?_, fun hnd l' hl' => ?_, fun ty v he => ⟨fun hA hty hv => ?_, fun _ hty hv => ?_⟩⟩, fun hd a ha => ?_⟩
  · obtain ⟨a, t, hs, ha, P⟩ := hp f hf (Or.inl hn)
    obtain ⟨used, rest, ht, hlow, hr, hu⟩ := P.text
    have hdig := P.digits hn
    refine ⟨hdig.imp (fun h b hb => (h b hb).imp (fun h => by simp [isAlnum, h]) id) id, fun h3 hno => ?_, fun hA hY => ?_⟩
    · rcases hdig with hdig | hl
      · by_cases h46 : 46 ∈ f.2
        · have hm : lowerB 46 ∈ lower f.2 := List.mem_map_of_mem h46
          rw [hlow] at hm
          obtain ⟨b, hb, e⟩ := List.mem_map.1 hm
          have : b = 46 := by
            unfold lowerB isUpper at e
            simp only [Bool.and_eq_true, decide_eq_true_eq] at e
            split at e <;> split at e <;> omega
          subst this
          exact hno.1 (by rw [hs, ht]; simp [hb])
        · have hd : ∀ b ∈ f.2, isDigit b = true := fun b hb => (hdig b hb).resolve_right fun e => h46 (e ▸ hb)
          have run : RunIn f.2 f.2 [] [] := ⟨by simp, fun e => (by rw [e] at h3; cases h3), hd, fun l hl => (by cases hl), Stops.nil _⟩
          obtain ⟨x, y, run', -⟩ := run_case run hlow
          exact hno.2 _ (run_text hs ha ht hr run') h3
      · rcases hl with e | e <;> rw [e] at h3 <;> cases h3
    · by_cases he : f.2.takeWhile isDigit = []
      · rw [he]; simp
      · have run : RunIn (f.2.takeWhile isDigit) f.2 [] (f.2.dropWhile isDigit) :=
          ⟨by simp, he, all_take _ _, fun l hl => (by cases hl), stops_drop _ _⟩
        obtain ⟨x, y, run', -⟩ := run_case run hlow
        exact (hcase hA).2.2 hY _ (run_text hs ha ht hr run')
  · obtain ⟨a, t, hs, ha, P⟩ := hp f hf hnd
    obtain ⟨used, rest, ht, hlow, hr, hu⟩ := P.text
    obtain ⟨h1, h2⟩ := split_runs (full := f.2) _ f.2 0 l' [] rfl (apart_of (by simp)) hl'
    refine ⟨fun g hg hh h3 hno => ?_, dateSplit_plain _ _ _ _ hl', fun hA hall g hg => ?_⟩
    · obtain ⟨x, y, run⟩ := h1 g hg hh
      obtain ⟨x', y', run', -⟩ := run_case run hlow
      exact hno.2 _ (run_text hs ha ht hr run') h3
    · obtain ⟨x, j, y, run, hj⟩ := h2 hall g hg
      obtain ⟨x', y', run', e⟩ := run_case run hlow
      cases y' with
      | nil => cases e
      | cons j' y' =>
        injection e with e _
        have hj' : isAlnum j' = false := by rw [← alnum_free j', e, alnum_free j]; exact hj
        have hwb := hu j' (by rw [run'.text]; simp)
        refine (hcase hA).2.1 (a ++ x') g j' (y' ++ rest) (by rw [hs, ht, run'.text]; simp [List.append_assoc])
          (fun b hb => figure_iff.2 (run'.digits b hb)) ?_
        have hc : j' = 43 ∨ j' = 45 ∨ j' = 47 ∨ j' = 95 ∨ j' = 46 ∨ j' = 58 := by
          simpa [isWordB, hj', or_assoc] using hwb
        rcases hc with e | e | e | e | e | e <;> rw [e] <;> decide
  · subst hty hv
    exact (hcase hA).1 (said_word he (hw f hf) (by decide +kernel) (by decide) (by decide))
  · rcases hty with rfl | rfl <;> subst hv
    · exact said_word he (hw f hf) (by decide +kernel) (by decide) (by decide)
    · exact said_word he (hw f hf) (by decide +kernel) (by decide) (by decide)
  · obtain ⟨_, t, -, -, P⟩ := hp f hf (Or.inr hd)
    exact str2i32_nonneg P.head ha

end Pg
