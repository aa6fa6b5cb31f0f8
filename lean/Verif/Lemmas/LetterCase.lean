import Verif.Lemmas.Scan
import Verif.Lemmas.Lists
import Verif.Lemmas.St

/-! # Texts that differ in letter case -/

namespace Pg

/-- A test that does not depend on letter case. -/
def CaseFree (p : Nat → Bool) : Prop := ∀ b, p (lowerB b) = p b

theorem lowerB_cases (b : Nat) : (65 ≤ b ∧ b ≤ 90 ∧ lowerB b = b + 32) ∨ ((b < 65 ∨ 90 < b) ∧ lowerB b = b) := by
  unfold lowerB isUpper
  by_cases h : 65 ≤ b ∧ b ≤ 90
  · exact .inl ⟨h.1, h.2, by simp [h]⟩
  · refine .inr ⟨by omega, ?_⟩
    rw [if_neg]
    simp only [Bool.and_eq_true, decide_eq_true_eq]
    exact h

theorem CaseFree.of_iff {p : Nat → Bool} (h : ∀ b, p (lowerB b) = true ↔ p b = true) : CaseFree p := by
  intro b
  have := h b
  cases h1 : p (lowerB b) <;> cases h2 : p b <;> simp_all

theorem digit_free : CaseFree isDigit := by
  refine .of_iff fun b => ?_
  rw [isDigit_iff, isDigit_iff]
  have := lowerB_cases b
  omega
theorem alpha_free : CaseFree isAlpha := by
  refine .of_iff fun b => ?_
  rw [isAlpha_iff, isAlpha_iff]
  have := lowerB_cases b
  omega
theorem alnum_free : CaseFree isAlnum := alnum_lowerB
theorem space_free : CaseFree isSpace := by
  intro b
  rcases lowerB_cases b with ⟨h1, h2, h⟩ | ⟨-, h⟩
  · rw [h, (isSpace_false b).2 (by omega), (isSpace_false (b + 32)).2 (by omega)]
  · rw [h]
theorem punct_free : CaseFree isPunct := by
  refine .of_iff fun b => ?_
  rw [isPunct_iff, isPunct_iff]
  have := lowerB_cases b
  omega
theorem time_free : CaseFree isTimeB := by
  refine .of_iff fun b => ?_
  simp only [isTimeB, Bool.or_eq_true, isDigit_iff, decide_eq_true_eq]
  have := lowerB_cases b
  omega
theorem signed_free : CaseFree isSignedB := by
  refine .of_iff fun b => ?_
  simp only [isSignedB, Bool.or_eq_true, isDigit_iff, decide_eq_true_eq]
  have := lowerB_cases b
  omega
theorem word_free : CaseFree isWordB := by
  refine .of_iff fun b => ?_
  simp only [isWordB, Bool.or_eq_true, isAlnum_iff, decide_eq_true_eq]
  have := lowerB_cases b
  omega

theorem lower_take {p : Nat → Bool} (hp : CaseFree p) (s : Bytes) :
    (lower s).takeWhile p = lower (s.takeWhile p) := by
  rw [lower, List.takeWhile_map, lower]
  congr 2
  funext b; exact hp b
theorem lower_drop {p : Nat → Bool} (hp : CaseFree p) (s : Bytes) :
    (lower s).dropWhile p = lower (s.dropWhile p) := by
  rw [lower, List.dropWhile_map, lower]
  congr 2
  funext b; exact hp b

theorem lower_same {s : Bytes} (h : NoUpper s) : lower s = s := by
  unfold lower
  refine (List.map_congr_left fun b hb => ?_).trans (List.map_id s)
  unfold lowerB
  rw [h b hb]; rfl

theorem lower_nil : lower [] = [] := rfl
theorem lower_cons (c : Nat) (s : Bytes) : lower (c :: s) = lowerB c :: lower s := rfl
theorem lower_length (s : Bytes) : (lower s).length = s.length := List.length_map ..

/-- Not a letter. -/
def NotLetter (c : Nat) : Prop := isAlpha c = false

theorem lowerB_not {c : Nat} (h : NotLetter c) : lowerB c = c := by
  have : ¬ isAlpha c = true := by unfold NotLetter at h; rw [h]; simp
  rw [isAlpha_iff] at this
  rcases lowerB_cases c with ⟨h1, h2, h3⟩ | ⟨-, h3⟩
  · omega
  · exact h3

theorem lowerB_eq {d : Nat} (h : NotLetter d) (b : Nat) : lowerB b = d ↔ b = d := by
  have : ¬ isAlpha d = true := by unfold NotLetter at h; rw [h]; simp
  rw [isAlpha_iff] at this
  rcases lowerB_cases b with ⟨h1, h2, h3⟩ | ⟨-, h3⟩ <;> omega

theorem scanDelim_lower {d : Nat} (hd : NotLetter d) (s : Bytes) :
    scanDelim d (lower s) = ((scanDelim d s).1, lower (scanDelim d s).2.1, lower (scanDelim d s).2.2) := by
  have f1 : CaseFree fun b => decide (b = d) || isDigit b := by
    intro b; simp only [lowerB_eq hd, digit_free b]
  have f2 : CaseFree fun b => decide (b = d) || isAlnum b := by
    intro b; simp only [lowerB_eq hd, alnum_free b]
  have ld := lowerB_not hd
  cases s with
  | nil => rw [lower_nil, scanDelim]; simp only [lower_cons, lower_nil, ld]
  | cons c r =>
    have hh : (((lower (c :: r)).dropWhile isDigit).head? = some d) = (((c :: r).dropWhile isDigit).head? = some d) := by
      rw [lower_drop digit_free]
      cases (c :: r).dropWhile isDigit with
      | nil => rfl
      | cons a t => simp only [lower_cons, List.head?_cons, Option.some.injEq, lowerB_eq hd]
    rw [scanDelim.eq_def, scanDelim.eq_def]
    simp only [lower_cons, digit_free c]
    simp only [← lower_cons]
    by_cases h1 : isDigit c = true
    · rw [if_pos h1, if_pos h1]
      by_cases h2 : ((c :: r).dropWhile isDigit).head? = some d
      · rw [if_pos h2, if_pos (hh ▸ h2)]
        simp only [lower_drop digit_free, lower_take digit_free, lower_take f1, lower_drop f1, lower_cons d, ld,
          lower_append]
      · rw [if_neg h2, if_neg (hh ▸ h2)]
        simp only [lower_drop digit_free, lower_take digit_free, lower_cons d, ld]
    · rw [if_neg h1, if_neg h1]
      simp only [lower_take f2, lower_drop f2, lower_cons d, ld]

/-- A field in lower case. -/
def lowF (f : Field) : Field := (f.1, lower f.2)

theorem scanDigit_lower (s : Bytes) :
    scanDigit (lower s) = (lowF (scanDigit s).1, lower (scanDigit s).2) := by
  rw [scanDigit.eq_def, scanDigit.eq_def, lower_drop digit_free, lower_take digit_free]
  cases hd : s.dropWhile isDigit with
  | nil => rfl
  | cons c r =>
    simp only [lower_cons]
    by_cases h1 : c = 58
    · subst h1
      have e : lowerB 58 :: lower r = lower (58 :: r) := rfl
      rw [if_pos (by rfl), if_pos rfl, e, lower_take time_free, lower_drop time_free]
      simp only [lowF, lower_append]
    · have n58 : NotLetter 58 := rfl
      rw [if_neg (by rw [lowerB_eq n58]; exact h1), if_neg h1]
      have q : (decide (lowerB c = 45) || decide (lowerB c = 47) || decide (lowerB c = 46)) =
          (decide (c = 45) || decide (c = 47) || decide (c = 46)) := by
        simp only [lowerB_eq (show NotLetter 45 from rfl), lowerB_eq (show NotLetter 46 from rfl),
          lowerB_eq (show NotLetter 47 from rfl)]
      rw [q]
      by_cases h2 : (decide (c = 45) || decide (c = 47) || decide (c = 46)) = true
      · rw [if_pos h2, if_pos h2]
        have nl : NotLetter c := by
          simp only [Bool.or_eq_true, decide_eq_true_eq] at h2
          rcases h2 with (rfl | rfl) | rfl <;> rfl
        simp only [lowerB_not nl, scanDelim_lower nl, lowF, lower_append]
      · rw [if_neg h2, if_neg h2]
        rfl

theorem scanDot_lower (s : Bytes) : scanDot (lower s) = (lowF (scanDot s).1, lower (scanDot s).2) := by
  cases s with
  | nil => rfl
  | cons c r => simp only [lower_cons, scanDot, lower_take digit_free, lower_drop digit_free, lowF]

theorem alphaIsDate_lower (w r : Bytes) : alphaIsDate w (lower r) = alphaIsDate w r := by
  cases r with
  | nil => rfl
  | cons c r =>
    rw [lower_cons]
    simp only [alphaIsDate, lowerB_eq (show NotLetter 45 from rfl), lowerB_eq (show NotLetter 46 from rfl),
      lowerB_eq (show NotLetter 47 from rfl), lowerB_eq (show NotLetter 43 from rfl), digit_free c]

/-- Lower case of a scanned field and the rest. -/
def lowR (x : Field × Bytes) : Field × Bytes := (lowF x.1, lower x.2)

/-- Apply a function to the result. -/
def Res.map {α β : Type} (f : α → β) : Res α → Res β
  | .ok a => .ok (f a)
  | .err e => .err e
  | .panic => .panic

theorem scanAlpha_lower (s : Bytes) : scanAlpha (lower s) = (scanAlpha s).map lowR := by
  rw [scanAlpha, scanAlpha, lower_take alpha_free, lower_drop alpha_free, lower_idem, alphaIsDate_lower]
  cases alphaIsDate (lower (s.takeWhile isAlpha)) (s.dropWhile isAlpha) with
  | err e => rfl
  | panic => rfl
  | ok b =>
    simp only [Res.bind_ok]
    cases b with
    | true =>
      simp only [if_true, Res.map, lowR, lowF, lower_take word_free, lower_drop word_free, lower_append, lower_idem]
    | false => simp only [Bool.false_eq_true, if_false, Res.map, lowR, lowF, lower_idem]

theorem scanSign_lower (u : TokenField) (s : Bytes) : scanSign u (lower s) = (scanSign u s).map lowR := by
  cases s with
  | nil => rfl
  | cons c r =>
    rw [lower_cons, scanSign, scanSign, lower_drop space_free]
    cases r.dropWhile isSpace with
    | nil => rfl
    | cons a t =>
      simp only [lower_cons, digit_free a, alpha_free a]
      simp only [← lower_cons]
      by_cases h1 : isDigit a = true
      · rw [if_pos h1, if_pos h1, lower_take signed_free, lower_drop signed_free]; rfl
      · rw [if_neg h1, if_neg h1]
        by_cases h2 : isAlpha a = true
        · rw [if_pos h2, if_pos h2, lower_take alpha_free, lower_drop alpha_free]; rfl
        · rw [if_neg h2, if_neg h2]; rfl

theorem scanField_lower (u : TokenField) (c : Nat) (s : Bytes) :
    scanField u (lowerB c) (lower s) = (scanField u c s).map lowR := by
  rw [scanField, scanField, digit_free c, alpha_free c]
  simp only [lowerB_eq (show NotLetter 46 from rfl)]
  by_cases h1 : isDigit c = true
  · rw [if_pos h1, if_pos h1, scanDigit_lower]; rfl
  · rw [if_neg h1, if_neg h1]
    by_cases h2 : c = 46
    · rw [if_pos h2, if_pos h2, scanDot_lower]; rfl
    · rw [if_neg h2, if_neg h2]
      by_cases h3 : isAlpha c = true
      · rw [if_pos h3, if_pos h3, scanAlpha_lower]
      · rw [if_neg h3, if_neg h3, scanSign_lower]

theorem scanLoop_lower (u : TokenField) (n : Nat) (s : Bytes) (cap nf : Nat) :
    scanLoop u n (lower s) cap nf = (scanLoop u n s cap nf).map (List.map lowF) := by
  induction n generalizing s cap nf with
  | zero => rfl
  | succ n ih =>
    rw [scanLoop, scanLoop, lower_drop space_free]
    cases s.dropWhile isSpace with
    | nil => rfl
    | cons c r =>
      simp only [lower_cons]
      by_cases h0 : nf ≥ 25
      · rw [if_pos h0, if_pos h0]; rfl
      · rw [if_neg h0, if_neg h0]
        simp only [digit_free c, alpha_free c, lowerB_eq (show NotLetter 46 from rfl),
          lowerB_eq (show NotLetter 43 from rfl), lowerB_eq (show NotLetter 45 from rfl), punct_free c]
        by_cases h1 : (isDigit c || decide (c = 46) || isAlpha c || decide (c = 43) || decide (c = 45)) = true
        · rw [if_pos h1, if_pos h1]
          by_cases h2 : cap = 0
          · rw [if_pos h2, if_pos h2]; rfl
          · rw [if_neg h2, if_neg h2, ← lower_cons, scanField_lower]
            cases scanField u c (c :: r) with
            | err e => rfl
            | panic => rfl
            | ok x =>
              obtain ⟨f, rest⟩ := x
              simp only [Res.map, Res.bind_ok, lowR, lowF, lower_length]
              by_cases h3 : f.2.length > cap
              · rw [if_pos h3, if_pos h3]
              · rw [if_neg h3, if_neg h3, ih]
                cases scanLoop u n rest (cap - f.2.length) (nf + 1) <;> rfl
        · rw [if_neg h1, if_neg h1]
          by_cases h2 : isPunct c = true
          · rw [if_pos h2, if_pos h2, ← lower_cons, lower_drop punct_free, ih]
          · rw [if_neg h2, if_neg h2]; rfl

theorem scan_lower (u : TokenField) (s : Bytes) : scan u (lower s) = (scan u s).map (List.map lowF) := by
  rw [scan, scan, lower_length]
  cases s with
  | nil => rfl
  | cons c r => exact scanLoop_lower ..

/-! ## Which fields can have upper case letters -/

/-- In lower case, or a date that starts with a word in lower case. -/
def TidyField (f : Field) : Prop :=
  NoUpper f.2 ∨ (f.1 = .date ∧ (∃ c r, f.2 = c :: r ∧ isAlpha c = true) ∧ NoUpper (f.2.takeWhile isAlpha))

theorem scanField_tidy {u : TokenField} {c : Nat} {r : Bytes} {f : Field} {rest : Bytes}
    (hc : (isDigit c || decide (c = 46) || isAlpha c || decide (c = 43) || decide (c = 45)) = true)
    (h : scanField u c (c :: r) = .ok (f, rest)) : TidyField f := by
  by_cases h3 : isAlpha c = true
  · rw [scanField] at h
    have hd : isDigit c = false := by
      rw [isAlpha_iff] at h3
      cases hh : isDigit c with
      | false => rfl
      | true => rw [isDigit_iff] at hh; omega
    have h46 : c ≠ 46 := by rintro rfl; cases h3
    rw [if_neg (by rw [hd]; simp), if_neg h46, if_pos h3, scanAlpha] at h
    obtain ⟨b, hk, hb⟩ := Res.bind_eq_ok.mp h
    have hw : (c :: r).takeWhile isAlpha = c :: r.takeWhile isAlpha := List.takeWhile_cons_of_pos h3
    cases b with
    | true =>
      cases hb
      refine .inr ⟨rfl, ?_, ?_⟩
      · rw [hw]; exact ⟨lowerB c, _, rfl, (alpha_free c).trans h3⟩
      · rw [takeWhile_span]
        · exact noUpper_lower _
        · intro x hx
          rw [lower, List.mem_map] at hx
          obtain ⟨y, hy, rfl⟩ := hx
          rw [alpha_free y]
          exact List.all_eq_true.mp (List.all_takeWhile (l := c :: r) (p := isAlpha)) y hy
        · have : Stops isAlpha ((c :: r).dropWhile isAlpha) := by
            intro x hx
            have := List.head?_dropWhile_not isAlpha (c :: r)
            rw [Option.mem_def] at hx
            rw [hx] at this
            simpa using this
          intro x hx
          refine this x ?_
          cases hq : (c :: r).dropWhile isAlpha with
          | nil => rw [hq] at hx; cases hx
          | cons a t =>
            rw [hq] at hx
            by_cases ha : isWordB a = true
            · rw [List.takeWhile_cons_of_pos ha] at hx; exact hx
            · rw [List.takeWhile_cons_of_neg ha] at hx; cases hx
    | false => cases hb; exact .inl (noUpper_lower _)
  · rcases scanField_upper hc h with hu | hu
    · exact .inl hu
    · have hd : isDigit c = true ∨ ¬ isDigit c = true := Classical.em _
      rcases hd with hd | hd
      · rw [scanField, if_pos hd] at h
        have := scanDigit_noUpper (c :: r)
        rw [Res.ok.inj h] at this
        exact .inl this
      · rw [scanField, if_neg hd] at h
        by_cases h2 : c = 46
        · rw [if_pos h2] at h
          cases h; cases hu
        · rw [if_neg h2, if_neg h3, scanSign] at h
          have hsg : c = 43 ∨ c = 45 := by
            have h1' : isDigit c = false := by simpa using hd
            have h3' : isAlpha c = false := by simpa using h3
            simpa [h1', h3', h2] using hc
          have hcu : isUpper c = false := by rw [isUpper_false]; omega
          cases hrd : r.dropWhile isSpace with
          | nil => simp only [hrd] at h; cases h; exact .inl (NoUpper.cons hcu fun _ h => by cases h)
          | cons c' r' =>
            simp only [hrd] at h
            split at h
            · cases h; exact .inl (NoUpper.cons hcu (noUpper_take signed_noUpper _))
            · split at h
              · cases h; exact .inl (NoUpper.cons hcu (noUpper_lower _))
              · cases h

theorem scanLoop_tidy {u : TokenField} {fuel : Nat} {s : Bytes} {cap nf : Nat} {l : List Field}
    (h : scanLoop u fuel s cap nf = .ok l) : ∀ f ∈ l, TidyField f := by
  induction fuel generalizing s cap nf l with
  | zero => rw [scanLoop] at h; cases h; simp
  | succ n ih =>
    rw [scanLoop] at h
    split at h
    · cases h; simp
    · split at h
      · cases h
      · split at h
        · rename_i hc
          split at h
          · cases h
          · obtain ⟨f, h1, h2⟩ := Res.bind_eq_ok.mp h
            simp only at h2
            split at h2
            · cases h2
            · obtain ⟨l', h3, h4⟩ := Res.bind_eq_ok.mp h2
              cases h4
              intro g hg
              rcases List.mem_cons.mp hg with rfl | hg
              · exact scanField_tidy hc h1
              · exact ih h3 g hg
        · split at h
          · exact ih h
          · cases h

theorem scan_tidy {u : TokenField} {s : Bytes} {l : List Field} (h : scan u s = .ok l) : ∀ f ∈ l, TidyField f := by
  rw [scan] at h
  split at h
  · cases h
  · exact scanLoop_tidy h

end Pg
