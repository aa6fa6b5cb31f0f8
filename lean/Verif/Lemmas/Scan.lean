import Verif.Lemmas.Token
import Verif.Model.Scan

/-! # What the tokenizer keeps of the text -/

namespace Pg

/-- The text without its white space. -/
def noSpace (s : Bytes) : Bytes := s.filter fun b => !isSpace b

theorem noSpace_append (a b : Bytes) : noSpace (a ++ b) = noSpace a ++ noSpace b := List.filter_append ..
theorem lower_append (a b : Bytes) : lower (a ++ b) = lower a ++ lower b := List.map_append

theorem noSpace_take {p : Nat → Bool} (hp : ∀ b, p b = true → isSpace b = false) (s : Bytes) :
    noSpace (s.takeWhile p) = s.takeWhile p := by
  refine List.filter_eq_self.mpr fun b hb => ?_
  have := List.all_eq_true.mp (List.all_takeWhile (l := s) (p := p)) b hb
  rw [hp b this]; rfl

theorem noSpace_cons {c : Nat} (hc : isSpace c = false) (s : Bytes) : noSpace (c :: s) = c :: noSpace s := by
  rw [noSpace, List.filter_cons_of_pos (by simp [hc])]; rfl

theorem noSpace_spaces (s : Bytes) : noSpace (s.takeWhile isSpace) = [] := by
  refine List.filter_eq_nil_iff.mpr fun b hb => ?_
  have := List.all_eq_true.mp (List.all_takeWhile (l := s) (p := isSpace)) b hb
  simp [this]

theorem isDigit_iff (b : Nat) : isDigit b = true ↔ 48 ≤ b ∧ b ≤ 57 := by simp [isDigit]
theorem isAlpha_iff (b : Nat) : isAlpha b = true ↔ (65 ≤ b ∧ b ≤ 90) ∨ (97 ≤ b ∧ b ≤ 122) := by
  simp [isAlpha, isUpper, isLower]
theorem isAlnum_iff (b : Nat) : isAlnum b = true ↔ (65 ≤ b ∧ b ≤ 90) ∨ (97 ≤ b ∧ b ≤ 122) ∨ (48 ≤ b ∧ b ≤ 57) := by
  simp [isAlnum, isAlpha, isUpper, isLower, isDigit, or_assoc]
theorem isSpace_false (b : Nat) : isSpace b = false ↔ b ≠ 32 ∧ b ≠ 9 ∧ b ≠ 10 ∧ b ≠ 12 ∧ b ≠ 13 := by
  simp [isSpace, and_assoc]
theorem isPunct_iff (b : Nat) : isPunct b = true ↔
    (33 ≤ b ∧ b ≤ 47) ∨ (58 ≤ b ∧ b ≤ 64) ∨ (91 ≤ b ∧ b ≤ 96) ∨ (123 ≤ b ∧ b ≤ 126) := by
  simp [isPunct, or_assoc]

theorem digit_noSpace (b : Nat) (h : isDigit b = true) : isSpace b = false := by
  rw [isDigit_iff] at h; rw [isSpace_false]; omega
theorem alpha_noSpace (b : Nat) (h : isAlpha b = true) : isSpace b = false := by
  rw [isAlpha_iff] at h; rw [isSpace_false]; omega
theorem alnum_noSpace (b : Nat) (h : isAlnum b = true) : isSpace b = false := by
  rw [isAlnum_iff] at h; rw [isSpace_false]; omega
theorem punct_noSpace (b : Nat) (h : isPunct b = true) : isSpace b = false := by
  rw [isPunct_iff] at h; rw [isSpace_false]; omega
theorem time_noSpace (b : Nat) (h : isTimeB b = true) : isSpace b = false := by
  simp only [isTimeB, Bool.or_eq_true, isDigit_iff, decide_eq_true_eq] at h
  rw [isSpace_false]; omega
theorem signed_noSpace (b : Nat) (h : isSignedB b = true) : isSpace b = false := by
  simp only [isSignedB, Bool.or_eq_true, isDigit_iff, decide_eq_true_eq] at h
  rw [isSpace_false]; omega
theorem word_noSpace (b : Nat) (h : isWordB b = true) : isSpace b = false := by
  simp only [isWordB, Bool.or_eq_true, isAlnum_iff, decide_eq_true_eq] at h
  rw [isSpace_false]; omega

theorem lowerB_idem (b : Nat) : lowerB (lowerB b) = lowerB b := by
  unfold lowerB
  by_cases h : isUpper b = true
  · rw [if_pos h]
    have : isUpper (b + 32) = false := by
      simp only [isUpper, Bool.and_eq_true, decide_eq_true_eq] at h
      simp only [isUpper, Bool.and_eq_false_iff, decide_eq_false_iff_not]; omega
    rw [this]; rfl
  · rw [if_neg h, if_neg h]

theorem lower_idem (s : Bytes) : lower (lower s) = lower s := by
  simp only [lower, List.map_map]
  exact List.map_congr_left fun b _ => lowerB_idem b

/-- A field made of a part of the text: the same bytes up to letter case and white space. -/
def Kept (f used : Bytes) : Prop := lower f = lower (noSpace used)

theorem Kept.length {f used : Bytes} (h : Kept f used) : f.length ≤ used.length := by
  have := congrArg List.length h
  simp only [lower, List.length_map] at this
  rw [this]
  exact List.length_filter_le ..

theorem scanDelim_spec (delim : Nat) (hd : isSpace delim = false) (s : Bytes) :
    ∃ used, delim :: s = used ++ (scanDelim delim s).2.2 ∧ Kept (scanDelim delim s).2.1 used := by
  have h1 : ∀ b, (decide (b = delim) || isDigit b) = true → isSpace b = false := by
    intro b hb
    simp only [Bool.or_eq_true, decide_eq_true_eq] at hb
    rcases hb with rfl | hb
    · exact hd
    · exact digit_noSpace b hb
  have h2 : ∀ b, (decide (b = delim) || isAlnum b) = true → isSpace b = false := by
    intro b hb
    simp only [Bool.or_eq_true, decide_eq_true_eq] at hb
    rcases hb with rfl | hb
    · exact hd
    · exact alnum_noSpace b hb
  cases s with
  | nil => exact ⟨[delim], rfl, by rw [Kept, noSpace_cons hd]; rfl⟩
  | cons c r =>
    rw [scanDelim]
    by_cases hc : isDigit c = true
    · rw [if_pos hc]
      by_cases hh : ((c :: r).dropWhile isDigit).head? = some delim
      · refine ⟨delim :: ((c :: r).takeWhile isDigit ++
          ((c :: r).dropWhile isDigit).takeWhile fun b => b = delim || isDigit b), ?_, ?_⟩
        · simp only [if_pos hh, List.cons_append, List.append_assoc, List.takeWhile_append_dropWhile]
        · simp only [if_pos hh]
          rw [Kept, noSpace_cons hd, noSpace_append, noSpace_take digit_noSpace, noSpace_take h1]
      · refine ⟨delim :: (c :: r).takeWhile isDigit, ?_, ?_⟩
        · simp only [if_neg hh, List.cons_append, List.takeWhile_append_dropWhile]
        · simp only [if_neg hh]
          rw [Kept, noSpace_cons hd, noSpace_take digit_noSpace]
    · rw [if_neg hc]
      refine ⟨delim :: (c :: r).takeWhile fun b => b = delim || isAlnum b, ?_, ?_⟩
      · simp only [List.cons_append, List.takeWhile_append_dropWhile]
      · rw [Kept, noSpace_cons hd, noSpace_take h2]
        show lowerB delim :: lower (lower _) = lowerB delim :: lower _
        rw [lower_idem]

theorem scanDigit_spec (s : Bytes) :
    ∃ used, s = used ++ (scanDigit s).2 ∧ Kept (scanDigit s).1.2 used := by
  have hs : s = s.takeWhile isDigit ++ s.dropWhile isDigit := List.takeWhile_append_dropWhile.symm
  have hk : noSpace (s.takeWhile isDigit) = s.takeWhile isDigit := noSpace_take digit_noSpace s
  rw [scanDigit]
  cases hd : s.dropWhile isDigit with
  | nil => exact ⟨s.takeWhile isDigit, by rw [hd] at hs; exact hs, by rw [Kept, hk]⟩
  | cons c r =>
    rw [hd] at hs
    simp only
    by_cases h1 : c = 58
    · rw [if_pos h1]
      refine ⟨s.takeWhile isDigit ++ (c :: r).takeWhile isTimeB, ?_, ?_⟩
      · rw [List.append_assoc, List.takeWhile_append_dropWhile]; exact hs
      · rw [Kept, noSpace_append, hk, noSpace_take time_noSpace]
    · rw [if_neg h1]
      by_cases h2 : (decide (c = 45) || decide (c = 47) || decide (c = 46)) = true
      · rw [if_pos h2]
        have hc : isSpace c = false := by
          simp only [Bool.or_eq_true, decide_eq_true_eq] at h2
          rw [isSpace_false]; omega
        obtain ⟨u, e1, e2⟩ := scanDelim_spec c hc r
        refine ⟨s.takeWhile isDigit ++ u, ?_, ?_⟩
        · rw [List.append_assoc, ← e1]; exact hs
        · rw [Kept, noSpace_append, hk, lower_append, lower_append, e2]
      · rw [if_neg h2]
        exact ⟨s.takeWhile isDigit, hs, by rw [Kept, hk]⟩

theorem scanAlpha_spec (s : Bytes) :
    ∃ f rest used, scanAlpha s = .ok (f, rest) ∧ s = used ++ rest ∧ Kept f.2 used := by
  have hs : s = s.takeWhile isAlpha ++ s.dropWhile isAlpha := List.takeWhile_append_dropWhile.symm
  have hk : noSpace (s.takeWhile isAlpha) = s.takeWhile isAlpha := noSpace_take alpha_noSpace s
  have ha : ∃ b, alphaIsDate (lower (s.takeWhile isAlpha)) (s.dropWhile isAlpha) = .ok b := by
    cases s.dropWhile isAlpha with
    | nil => exact ⟨_, rfl⟩
    | cons c r =>
      simp only [alphaIsDate, searchDate_eq, Res.bind_ok]
      split
      · exact ⟨_, rfl⟩
      · split <;> exact ⟨_, rfl⟩
  obtain ⟨b, hb⟩ := ha
  rw [scanAlpha]
  simp only [hb, Res.bind_ok]
  cases b with
  | true =>
    refine ⟨_, _, s.takeWhile isAlpha ++ (s.dropWhile isAlpha).takeWhile isWordB, rfl, ?_, ?_⟩
    · rw [List.append_assoc, List.takeWhile_append_dropWhile]; exact hs
    · rw [Kept, noSpace_append, hk, noSpace_take word_noSpace, lower_append, lower_append, lower_idem]
  | false =>
    exact ⟨_, _, s.takeWhile isAlpha, rfl, hs, by rw [Kept, hk, lower_idem]⟩

theorem scanSign_spec (u : TokenField) {sign : Nat} (hsg : isSpace sign = false) (r : Bytes) :
    scanSign u (sign :: r) = .err .invalid ∨
      ∃ f rest used, scanSign u (sign :: r) = .ok (f, rest) ∧ sign :: r = used ++ rest ∧ Kept f.2 used := by
  have hs : r = r.takeWhile isSpace ++ r.dropWhile isSpace := List.takeWhile_append_dropWhile.symm
  have hk : noSpace (r.takeWhile isSpace) = [] := noSpace_spaces r
  rw [scanSign]
  cases hd : r.dropWhile isSpace with
  | nil =>
    refine .inr ⟨_, _, sign :: r.takeWhile isSpace, rfl, ?_, ?_⟩
    · rw [hd, List.append_nil] at hs; rw [← hs, List.append_nil]
    · rw [Kept, noSpace_cons hsg, hk]
  | cons c s' =>
    rw [hd] at hs
    simp only
    by_cases h1 : isDigit c = true
    · rw [if_pos h1]
      refine .inr ⟨_, _, sign :: (r.takeWhile isSpace ++ (c :: s').takeWhile isSignedB), rfl, ?_, ?_⟩
      · rw [List.cons_append, List.append_assoc, List.takeWhile_append_dropWhile, ← hs]
      · rw [Kept, noSpace_cons hsg, noSpace_append, hk, noSpace_take signed_noSpace]; rfl
    · rw [if_neg h1]
      by_cases h2 : isAlpha c = true
      · rw [if_pos h2]
        refine .inr ⟨_, _, sign :: (r.takeWhile isSpace ++ (c :: s').takeWhile isAlpha), rfl, ?_, ?_⟩
        · rw [List.cons_append, List.append_assoc, List.takeWhile_append_dropWhile, ← hs]
        · rw [Kept, noSpace_cons hsg, noSpace_append, hk, noSpace_take alpha_noSpace]
          show lowerB sign :: lower (lower _) = lowerB sign :: lower _
          rw [lower_idem]; rfl
      · rw [if_neg h2]; exact .inl rfl

/-- One field: an error, or a nonempty part of the text is used up and kept in the field. -/
theorem scanField_spec (u : TokenField) {c : Nat} (r : Bytes)
    (hc : (isDigit c || decide (c = 46) || isAlpha c || decide (c = 43) || decide (c = 45)) = true) :
    scanField u c (c :: r) = .err .invalid ∨
      ∃ f rest used, scanField u c (c :: r) = .ok (f, rest) ∧ c :: r = used ++ rest ∧
        Kept f.2 used ∧ f.2 ≠ [] := by
  have ne : ∀ (f used rest : Bytes), isSpace c = false → c :: r = used ++ rest → Kept f used →
      rest.length ≤ r.length → f ≠ [] := by
    intro f used rest hsp he hk hl hf
    cases used with
    | nil => have := congrArg List.length he; simp at this; omega
    | cons a used' =>
      cases he
      rw [Kept, noSpace_cons hsp, hf] at hk
      simp [lower] at hk
  have dropLe : ∀ (p : Nat → Bool) (l : Bytes), (l.dropWhile p).length ≤ l.length := fun p l =>
    (List.dropWhile_suffix p).length_le
  rw [scanField]
  by_cases h1 : isDigit c = true
  · rw [if_pos h1]
    obtain ⟨used, e1, e2⟩ := scanDigit_spec (c :: r)
    refine .inr ⟨_, _, used, rfl, e1, e2, ?_⟩
    have hl : (scanDigit (c :: r)).2.length ≤ r.length := by
      have hd : (c :: r).dropWhile isDigit = r.dropWhile isDigit := by
        rw [List.dropWhile_cons_of_pos h1]
      have hr := dropLe isDigit r
      rw [scanDigit, hd]
      cases hrd : r.dropWhile isDigit with
      | nil => simp
      | cons c' r' =>
        rw [hrd] at hr
        simp only
        split
        · exact Nat.le_trans (dropLe _ _) hr
        · split
          · rename_i hq
            have hc' : isSpace c' = false := by
              simp only [Bool.or_eq_true, decide_eq_true_eq] at hq
              rw [isSpace_false]; omega
            obtain ⟨u', e1, -⟩ := scanDelim_spec c' hc' r'
            have := congrArg List.length e1
            rw [List.length_append] at this
            show (scanDelim c' r').2.2.length ≤ _
            omega
          · exact hr
    exact ne _ used _ (digit_noSpace c h1) e1 e2 hl
  · rw [if_neg h1]
    by_cases h2 : c = 46
    · rw [if_pos h2]
      refine .inr ⟨_, _, c :: r.takeWhile isDigit, rfl, ?_, ?_, by simp⟩
      · show c :: r = c :: r.takeWhile isDigit ++ r.dropWhile isDigit
        rw [List.cons_append, List.takeWhile_append_dropWhile]
      · have : isSpace c = false := by rw [isSpace_false]; omega
        rw [Kept, noSpace_cons this, noSpace_take digit_noSpace]
    · rw [if_neg h2]
      by_cases h3 : isAlpha c = true
      · rw [if_pos h3]
        obtain ⟨f, rest, used, e1, e2, e3⟩ := scanAlpha_spec (c :: r)
        refine .inr ⟨f, rest, used, e1, e2, e3, ?_⟩
        refine ne _ used rest (alpha_noSpace c h3) e2 e3 ?_
        have hd : (c :: r).dropWhile isAlpha = r.dropWhile isAlpha := by
          rw [List.dropWhile_cons_of_pos h3]
        have hr := dropLe isAlpha r
        rw [scanAlpha, hd] at e1
        cases hb : alphaIsDate (lower ((c :: r).takeWhile isAlpha)) (r.dropWhile isAlpha) with
        | err e => simp only [hb] at e1; cases e1
        | panic => simp only [hb] at e1; cases e1
        | ok b =>
          simp only [hb, Res.bind_ok] at e1
          cases b with
          | true => cases e1; exact Nat.le_trans (dropLe _ _) hr
          | false => cases e1; exact hr
      · rw [if_neg h3]
        have hsg : c = 43 ∨ c = 45 := by
          have h1' : isDigit c = false := by simpa using h1
          have h3' : isAlpha c = false := by simpa using h3
          simpa [h1', h3', h2] using hc
        have hsp : isSpace c = false := by rw [isSpace_false]; omega
        rcases scanSign_spec u hsp r with h | ⟨f, rest, used, e1, e2, e3⟩
        · exact .inl h
        · refine .inr ⟨f, rest, used, e1, e2, e3, ?_⟩
          refine ne _ used rest hsp e2 e3 ?_
          have hr := dropLe isSpace r
          rw [scanSign] at e1
          cases hrd : r.dropWhile isSpace with
          | nil => simp only [hrd] at e1; cases e1; simp
          | cons c' r' =>
            rw [hrd] at hr
            simp only [hrd] at e1
            split at e1
            · cases e1; exact Nat.le_trans (dropLe _ _) hr
            · split at e1
              · cases e1; exact Nat.le_trans (dropLe _ _) hr
              · cases e1

/-- The bytes of all fields in order. -/
def fieldBytes (l : List Field) : Bytes := l.flatMap (·.2)

theorem fieldBytes_cons (f : Field) (l : List Field) : fieldBytes (f :: l) = f.2 ++ fieldBytes l := rfl

/-- What the fields keep of the text: up to letter case, a part of the text with white space removed
that contains all its letters and digits. -/
def KeptAll (f s : Bytes) : Prop :=
  List.Sublist (lower f) (lower (noSpace s)) ∧ (lower f).filter isAlnum = (lower s).filter isAlnum

theorem alnum_lowerB (b : Nat) : isAlnum (lowerB b) = isAlnum b := by
  unfold lowerB
  by_cases h : isUpper b = true
  · rw [if_pos h]
    simp only [isUpper, Bool.and_eq_true, decide_eq_true_eq] at h
    rw [Bool.eq_iff_iff, isAlnum_iff, isAlnum_iff]; omega
  · rw [if_neg h]

theorem alnum_lower (s : Bytes) : (lower s).filter isAlnum = lower (s.filter isAlnum) := by
  simp only [lower, List.filter_map]
  congr 1
  exact List.filter_congr fun b _ => alnum_lowerB b

theorem alnum_noSpaces (s : Bytes) : (noSpace s).filter isAlnum = s.filter isAlnum := by
  rw [noSpace, List.filter_filter]
  refine List.filter_congr fun b _ => ?_
  by_cases h : isAlnum b = true
  · rw [h, alnum_noSpace b h]; rfl
  · simp [h]

theorem KeptAll.cons {f : Bytes} {g used rest : Bytes} (h : Kept f used) (hl : KeptAll g rest) :
    KeptAll (f ++ g) (used ++ rest) := by
  refine ⟨?_, ?_⟩
  · rw [lower_append, noSpace_append, lower_append, h]
    exact List.Sublist.append (List.Sublist.refl _) hl.1
  · rw [lower_append, lower_append, List.filter_append, List.filter_append, hl.2, h, alnum_lower,
      alnum_noSpaces, ← alnum_lower]

theorem KeptAll.skip {g used rest : Bytes} (h : ∀ b ∈ used, isAlnum b = false) (hl : KeptAll g rest) :
    KeptAll g (used ++ rest) := by
  refine ⟨?_, ?_⟩
  · rw [noSpace_append, lower_append]
    exact List.Sublist.trans hl.1 (List.sublist_append_right _ _)
  · rw [lower_append, List.filter_append, hl.2, alnum_lower used]
    have : used.filter isAlnum = [] := List.filter_eq_nil_iff.mpr fun b hb => by simp [h b hb]
    rw [this]; rfl

theorem space_notAlnum (b : Nat) (h : isSpace b = true) : isAlnum b = false := by
  cases hh : isAlnum b with
  | false => rfl
  | true => rw [alnum_noSpace b hh] at h; cases h
theorem punct_notAlnum (b : Nat) (h : isPunct b = true) : isAlnum b = false := by
  cases hh : isAlnum b with
  | false => rfl
  | true => rw [isAlnum_iff] at hh; rw [isPunct_iff] at h; omega

theorem scanLoop_spec (u : TokenField) (fuel : Nat) (s : Bytes) (cap nf : Nat) (hf : s.length < fuel)
    (hcap : s.length ≤ cap) :
    scanLoop u fuel s cap nf = .err .invalid ∨
      ∃ l, scanLoop u fuel s cap nf = .ok l ∧ KeptAll (fieldBytes l) s ∧
        (∀ f ∈ l, f.2 ≠ []) := by
  induction fuel generalizing s cap nf with
  | zero => omega
  | succ n ih =>
    have hs : s = s.takeWhile isSpace ++ s.dropWhile isSpace := List.takeWhile_append_dropWhile.symm
    have hsp : ∀ b ∈ s.takeWhile isSpace, isAlnum b = false := fun b hb =>
      space_notAlnum b (List.all_eq_true.mp List.all_takeWhile b hb)
    have hlen : (s.dropWhile isSpace).length ≤ s.length := (List.dropWhile_suffix _).length_le
    rw [scanLoop]
    cases hd : s.dropWhile isSpace with
    | nil =>
      rw [hd] at hs
      refine .inr ⟨[], rfl, ?_, by simp⟩
      rw [hs]
      exact KeptAll.skip hsp ⟨List.Sublist.refl _, rfl⟩
    | cons c r =>
      rw [hd] at hs hlen
      simp only
      by_cases h0 : nf ≥ 25
      · rw [if_pos h0]; exact .inl rfl
      · rw [if_neg h0]
        by_cases h1 : (isDigit c || decide (c = 46) || isAlpha c || decide (c = 43) || decide (c = 45)) = true
        · rw [if_pos h1, if_neg (by simp only [List.length_cons] at hlen; omega)]
          rcases scanField_spec u r h1 with h | ⟨f, rest, used, e1, e2, e3, e4⟩
          · rw [h]; exact .inl rfl
          · rw [e1, Res.bind_ok]
            have hl2 := e3.length
            have hl3 := congrArg List.length e2
            rw [List.length_append] at hl3
            have hl4 : 0 < f.2.length := List.length_pos_iff.mpr e4
            simp only
            rw [if_neg (by omega)]
            rcases ih rest (cap - f.2.length) (nf + 1) (by omega) (by omega) with h | ⟨l, g1, g2, g3⟩
            · rw [h]; exact .inl rfl
            · rw [g1]
              refine .inr ⟨f :: l, rfl, ?_, ?_⟩
              · rw [hs, e2, fieldBytes_cons]
                exact KeptAll.skip hsp (KeptAll.cons e3 g2)
              · intro g hg
                rcases List.mem_cons.mp hg with rfl | hg
                · exact e4
                · exact g3 g hg
        · rw [if_neg h1]
          by_cases h2 : isPunct c = true
          · rw [if_pos h2, List.dropWhile_cons_of_pos h2]
            have hl2 : (r.dropWhile isPunct).length ≤ r.length := (List.dropWhile_suffix _).length_le
            simp only [List.length_cons] at hlen
            rcases ih (r.dropWhile isPunct) cap nf (by omega) (by omega) with h | ⟨l, g1, g2, g3⟩
            · rw [h]; exact .inl rfl
            · refine .inr ⟨l, g1, ?_, g3⟩
              rw [hs, show c :: r = (c :: r.takeWhile isPunct) ++ r.dropWhile isPunct by
                rw [List.cons_append, List.takeWhile_append_dropWhile]]
              refine KeptAll.skip hsp (KeptAll.skip ?_ g2)
              intro b hb
              rcases List.mem_cons.mp hb with rfl | hb
              · exact punct_notAlnum _ h2
              · exact punct_notAlnum b (List.all_eq_true.mp List.all_takeWhile b hb)
          · rw [if_neg h2]; exact .inl rfl

/-! ## Upper case letters -/

/-- No upper case letter. -/
def NoUpper (s : Bytes) : Prop := ∀ b ∈ s, isUpper b = false

theorem NoUpper.append {a b : Bytes} (ha : NoUpper a) (hb : NoUpper b) : NoUpper (a ++ b) := by
  intro x hx
  rcases List.mem_append.mp hx with h | h
  · exact ha x h
  · exact hb x h

theorem NoUpper.cons {c : Nat} {s : Bytes} (hc : isUpper c = false) (hs : NoUpper s) :
    NoUpper (c :: s) := by
  intro x hx
  rcases List.mem_cons.mp hx with rfl | h
  · exact hc
  · exact hs x h

theorem noUpper_lower (s : Bytes) : NoUpper (lower s) := by
  intro b hb
  obtain ⟨a, -, rfl⟩ := List.mem_map.mp hb
  unfold lowerB
  by_cases h : isUpper a = true
  · rw [if_pos h]
    simp only [isUpper, Bool.and_eq_true, decide_eq_true_eq] at h
    simp only [isUpper, Bool.and_eq_false_iff, decide_eq_false_iff_not]; omega
  · rw [if_neg h]; simpa using h

theorem noUpper_take {p : Nat → Bool} (hp : ∀ b, p b = true → isUpper b = false) (s : Bytes) :
    NoUpper (s.takeWhile p) := fun b hb =>
  hp b (List.all_eq_true.mp (List.all_takeWhile (l := s) (p := p)) b hb)

theorem isUpper_false (b : Nat) : isUpper b = false ↔ b < 65 ∨ 90 < b := by
  simp [isUpper]; omega

theorem digit_noUpper (b : Nat) (h : isDigit b = true) : isUpper b = false := by
  rw [isDigit_iff] at h; rw [isUpper_false]; omega
theorem time_noUpper (b : Nat) (h : isTimeB b = true) : isUpper b = false := by
  simp only [isTimeB, Bool.or_eq_true, isDigit_iff, decide_eq_true_eq] at h
  rw [isUpper_false]; omega
theorem signed_noUpper (b : Nat) (h : isSignedB b = true) : isUpper b = false := by
  simp only [isSignedB, Bool.or_eq_true, isDigit_iff, decide_eq_true_eq] at h
  rw [isUpper_false]; omega

theorem scanDelim_noUpper (delim : Nat) (hd : isUpper delim = false) (s : Bytes) :
    NoUpper (scanDelim delim s).2.1 := by
  have h1 : ∀ b, (decide (b = delim) || isDigit b) = true → isUpper b = false := by
    intro b hb
    simp only [Bool.or_eq_true, decide_eq_true_eq] at hb
    rcases hb with rfl | hb
    · exact hd
    · exact digit_noUpper b hb
  cases s with
  | nil => exact NoUpper.cons hd (fun _ h => by cases h)
  | cons c r =>
    rw [scanDelim]
    split
    · simp only
      split
      · exact NoUpper.cons hd ((noUpper_take digit_noUpper _).append (noUpper_take h1 _))
      · exact NoUpper.cons hd (noUpper_take digit_noUpper _)
    · exact NoUpper.cons hd (noUpper_lower _)

theorem scanDigit_noUpper (s : Bytes) : NoUpper (scanDigit s).1.2 := by
  rw [scanDigit]
  cases hd : s.dropWhile isDigit with
  | nil => exact noUpper_take digit_noUpper _
  | cons c r =>
    simp only
    split
    · exact (noUpper_take digit_noUpper _).append (noUpper_take time_noUpper _)
    · split
      · rename_i hq
        refine (noUpper_take digit_noUpper _).append (scanDelim_noUpper c ?_ r)
        simp only [Bool.or_eq_true, decide_eq_true_eq] at hq
        rw [isUpper_false]; omega
      · exact noUpper_take digit_noUpper _

theorem scanField_upper {u : TokenField} {c : Nat} {r : Bytes} {f : Field} {rest : Bytes}
    (hc : (isDigit c || decide (c = 46) || isAlpha c || decide (c = 43) || decide (c = 45)) = true)
    (h : scanField u c (c :: r) = .ok (f, rest)) : NoUpper f.2 ∨ f.1 = .date := by
  rw [scanField] at h
  by_cases h1 : isDigit c = true
  · rw [if_pos h1] at h
    have := scanDigit_noUpper (c :: r)
    have h' : scanDigit (c :: r) = (f, rest) := Res.ok.inj h
    rw [h'] at this
    exact .inl this
  · rw [if_neg h1] at h
    by_cases h2 : c = 46
    · rw [if_pos h2] at h
      cases h
      exact .inl (NoUpper.cons (by rw [isUpper_false]; omega) (noUpper_take digit_noUpper _))
    · rw [if_neg h2] at h
      by_cases h3 : isAlpha c = true
      · rw [if_pos h3, scanAlpha] at h
        obtain ⟨b, -, hb⟩ := Res.bind_eq_ok.mp h
        cases b with
        | true => cases hb; exact .inr rfl
        | false => cases hb; exact .inl (noUpper_lower _)
      · rw [if_neg h3, scanSign] at h
        have hsg : c = 43 ∨ c = 45 := by
          have h1' : isDigit c = false := by simpa using h1
          have h3' : isAlpha c = false := by simpa using h3
          simpa [h1', h3', h2] using hc
        have hcu : isUpper c = false := by rw [isUpper_false]; omega
        cases hrd : r.dropWhile isSpace with
        | nil => simp only [hrd] at h; cases h; exact .inl (NoUpper.cons hcu fun _ h => by cases h)
        | cons c' r' =>
          simp only [hrd] at h
          split at h
          · cases h; exact .inl (NoUpper.cons hcu (noUpper_take signed_noUpper _))
          · split at h
            · cases h; exact .inl (NoUpper.cons hcu (noUpper_lower _))
            · cases h

theorem scanLoop_upper {u : TokenField} {fuel : Nat} {s : Bytes} {cap nf : Nat} {l : List Field}
    (h : scanLoop u fuel s cap nf = .ok l) : ∀ f ∈ l, NoUpper f.2 ∨ f.1 = .date := by
  induction fuel generalizing s cap nf l with
  | zero => rw [scanLoop] at h; cases h; simp
  | succ n ih =>
    rw [scanLoop] at h
    split at h
    · cases h; simp
    · split at h
      · cases h
      · split at h
        · rename_i hc
          split at h
          · cases h
          · obtain ⟨f, h1, h2⟩ := Res.bind_eq_ok.mp h
            simp only at h2
            split at h2
            · cases h2
            · obtain ⟨l', h3, h4⟩ := Res.bind_eq_ok.mp h2
              cases h4
              intro g hg
              rcases List.mem_cons.mp hg with rfl | hg
              · exact scanField_upper hc h1
              · exact ih h3 g hg
        · split at h
          · exact ih h
          · cases h

end Pg
