import Verif.Lemmas.Scan

/-! # Only printable ASCII bytes and white space get through the scanner -/

namespace Pg

/-- Printable ASCII or white space. -/
def PlainB (b : Nat) : Prop := (33 ≤ b ∧ b ≤ 126) ∨ isSpace b = true

/-- Only such bytes. -/
def Plain (s : Bytes) : Prop := ∀ b ∈ s, PlainB b

theorem Plain.nil : Plain [] := fun _ h => by cases h
theorem Plain.append {a b : Bytes} (ha : Plain a) (hb : Plain b) : Plain (a ++ b) := by
  intro x hx
  rcases List.mem_append.mp hx with h | h
  · exact ha x h
  · exact hb x h
theorem Plain.cons {c : Nat} {s : Bytes} (hc : PlainB c) (hs : Plain s) : Plain (c :: s) := by
  intro x hx
  rcases List.mem_cons.mp hx with rfl | h
  · exact hc
  · exact hs x h
theorem plain_take {p : Nat → Bool} (hp : ∀ b, p b = true → PlainB b) (s : Bytes) : Plain (s.takeWhile p) :=
  fun b hb => hp b (List.all_eq_true.mp (List.all_takeWhile (l := s) (p := p)) b hb)

theorem digit_plain (b : Nat) (h : isDigit b = true) : PlainB b := by
  rw [isDigit_iff] at h; exact .inl (by omega)
theorem alpha_plain (b : Nat) (h : isAlpha b = true) : PlainB b := by
  rw [isAlpha_iff] at h; exact .inl (by omega)
theorem alnum_plain (b : Nat) (h : isAlnum b = true) : PlainB b := by
  rw [isAlnum_iff] at h; exact .inl (by omega)
theorem punct_plain (b : Nat) (h : isPunct b = true) : PlainB b := by
  rw [isPunct_iff] at h; exact .inl (by omega)
theorem time_plain (b : Nat) (h : isTimeB b = true) : PlainB b := by
  simp only [isTimeB, Bool.or_eq_true, isDigit_iff, decide_eq_true_eq] at h
  exact .inl (by omega)
theorem signed_plain (b : Nat) (h : isSignedB b = true) : PlainB b := by
  simp only [isSignedB, Bool.or_eq_true, isDigit_iff, decide_eq_true_eq] at h
  exact .inl (by omega)
theorem word_plain (b : Nat) (h : isWordB b = true) : PlainB b := by
  simp only [isWordB, Bool.or_eq_true, isAlnum_iff, decide_eq_true_eq] at h
  exact .inl (by omega)

theorem plainB_lower {b : Nat} : PlainB (lowerB b) → PlainB b := by
  unfold lowerB
  split
  · rename_i h
    simp only [isUpper, Bool.and_eq_true, decide_eq_true_eq] at h
    intro _
    exact .inl (by omega)
  · exact id
theorem plainB_lower' {b : Nat} (hb : PlainB b) : PlainB (lowerB b) := by
  unfold lowerB
  split
  · rename_i h
    simp only [isUpper, Bool.and_eq_true, decide_eq_true_eq] at h
    exact .inl (by omega)
  · exact hb
theorem Plain.lower {s : Bytes} (h : Plain s) : Plain (lower s) := by
  intro b hb
  obtain ⟨a, ha, rfl⟩ := List.mem_map.mp hb
  exact plainB_lower' (h a ha)

/-- The part of the text that is kept in a plain field is plain. -/
theorem Kept.plain {f used : Bytes} (h : Kept f used) (hf : Plain f) : Plain used := by
  intro b hb
  by_cases hs : isSpace b = true
  · exact .inr hs
  · have : lowerB b ∈ Pg.lower (noSpace used) :=
      List.mem_map.mpr ⟨b, List.mem_filter.mpr ⟨hb, by simpa using hs⟩, rfl⟩
    rw [← h] at this
    exact plainB_lower (hf.lower _ this)

theorem scanDelim_plain (delim : Nat) (hd : PlainB delim) (s : Bytes) : Plain (scanDelim delim s).2.1 := by
  have h1 : ∀ b, (decide (b = delim) || isDigit b) = true → PlainB b := by
    intro b hb
    simp only [Bool.or_eq_true, decide_eq_true_eq] at hb
    rcases hb with rfl | hb
    · exact hd
    · exact digit_plain b hb
  have h2 : ∀ b, (decide (b = delim) || isAlnum b) = true → PlainB b := by
    intro b hb
    simp only [Bool.or_eq_true, decide_eq_true_eq] at hb
    rcases hb with rfl | hb
    · exact hd
    · exact alnum_plain b hb
  cases s with
  | nil => exact Plain.cons hd .nil
  | cons c r =>
    rw [scanDelim]
    split
    · simp only
      split
      · exact Plain.cons hd ((plain_take digit_plain _).append (plain_take h1 _))
      · exact Plain.cons hd (plain_take digit_plain _)
    · exact Plain.cons hd (plain_take h2 _).lower

theorem scanDigit_plain (s : Bytes) : Plain (scanDigit s).1.2 := by
  rw [scanDigit]
  cases hd : s.dropWhile isDigit with
  | nil => exact plain_take digit_plain _
  | cons c r =>
    simp only
    split
    · exact (plain_take digit_plain _).append (plain_take time_plain _)
    · split
      · rename_i hq
        refine (plain_take digit_plain _).append (scanDelim_plain c ?_ r)
        simp only [Bool.or_eq_true, decide_eq_true_eq] at hq
        exact .inl (by omega)
      · exact plain_take digit_plain _

theorem scanField_plain {u : TokenField} {c : Nat} {r : Bytes} {f : Field} {rest : Bytes}
    (hc : (isDigit c || decide (c = 46) || isAlpha c || decide (c = 43) || decide (c = 45)) = true)
    (h : scanField u c (c :: r) = .ok (f, rest)) : Plain f.2 := by
  rw [scanField] at h
  by_cases h1 : isDigit c = true
  · rw [if_pos h1] at h
    have := scanDigit_plain (c :: r)
    have h' : scanDigit (c :: r) = (f, rest) := Res.ok.inj h
    rw [h'] at this
    exact this
  · rw [if_neg h1] at h
    by_cases h2 : c = 46
    · rw [if_pos h2] at h
      cases h
      exact Plain.cons (.inl (by omega)) (plain_take digit_plain _)
    · rw [if_neg h2] at h
      by_cases h3 : isAlpha c = true
      · rw [if_pos h3, scanAlpha] at h
        obtain ⟨b, -, hb⟩ := Res.bind_eq_ok.mp h
        cases b with
        | true => cases hb; exact (plain_take alpha_plain _).lower.append (plain_take word_plain _)
        | false => cases hb; exact (plain_take alpha_plain _).lower
      · rw [if_neg h3, scanSign] at h
        have hsg : c = 43 ∨ c = 45 := by
          have h1' : isDigit c = false := by simpa using h1
          have h3' : isAlpha c = false := by simpa using h3
          simpa [h1', h3', h2] using hc
        have hcu : PlainB c := .inl (by omega)
        cases hrd : r.dropWhile isSpace with
        | nil => simp only [hrd] at h; cases h; exact Plain.cons hcu .nil
        | cons c' r' =>
          simp only [hrd] at h
          split at h
          · cases h; exact Plain.cons hcu (plain_take signed_plain _)
          · split at h
            · cases h; exact Plain.cons hcu (plain_take alpha_plain _).lower
            · cases h

theorem scanLoop_plain {u : TokenField} {fuel : Nat} {s : Bytes} {cap nf : Nat} {l : List Field}
    (hf : s.length < fuel) (h : scanLoop u fuel s cap nf = .ok l) : Plain s := by
  induction fuel generalizing s cap nf l with
  | zero => omega
  | succ n ih =>
    have hs : s = s.takeWhile isSpace ++ s.dropWhile isSpace := List.takeWhile_append_dropWhile.symm
    have hsp : Plain (s.takeWhile isSpace) := plain_take (fun b hb => .inr hb) s
    have hlen : (s.dropWhile isSpace).length ≤ s.length := (List.dropWhile_suffix _).length_le
    rw [scanLoop] at h
    rw [hs]
    refine hsp.append ?_
    cases hd : s.dropWhile isSpace with
    | nil => exact .nil
    | cons c r =>
      rw [hd] at h hlen
      simp only [List.length_cons] at h hlen
      split at h
      · cases h
      · split at h
        · rename_i hc
          split at h
          · cases h
          · obtain ⟨f, h1, h2⟩ := Res.bind_eq_ok.mp h
            split at h2
            · cases h2
            · obtain ⟨l', h3, h4⟩ := Res.bind_eq_ok.mp h2
              rcases scanField_spec u r hc with y | ⟨f', rest, used, y1, y2, y3, y4⟩
              · rw [h1] at y; cases y
              · rw [h1] at y1
                cases y1
                have k0 := congrArg List.length y2
                rw [List.length_append, List.length_cons] at k0
                have k1 := y3.length
                have k2 : 0 < f'.2.length := List.length_pos_iff.mpr y4
                rw [y2]
                exact (y3.plain (scanField_plain hc h1)).append (ih (by omega) h3)
        · split at h
          · rename_i hp
            have q1 : ((c :: r).dropWhile isPunct).length ≤ r.length := by
              rw [List.dropWhile_cons_of_pos hp]; exact (List.dropWhile_suffix _).length_le
            have := ih (by omega) h
            have e : c :: r = (c :: r).takeWhile isPunct ++ (c :: r).dropWhile isPunct :=
              List.takeWhile_append_dropWhile.symm
            rw [e]
            exact (plain_take punct_plain _).append this
          · cases h

theorem scan_plain {u : TokenField} {s : Bytes} {l : List Field} (h : scan u s = .ok l) : Plain s := by
  rw [scan] at h
  split at h
  · cases h
  · exact scanLoop_plain (by omega) h

end Pg
