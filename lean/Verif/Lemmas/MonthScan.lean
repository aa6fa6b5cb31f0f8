import Verif.Lemmas.MonthJoined
import Verif.Lemmas.AnyDay
import Verif.Lemmas.IntervalPieces

/-! # Scanning days with a month name -/

namespace Pg
open Spec

/-- The fields of a day with a month name. -/
def monthFields : MonthText → List Field
  | .joined x a w b => [(.date, a ++ x :: (lower w ++ x :: b))]
  | .joinedFirst x w a b => [(.date, lower w ++ x :: (a ++ x :: b))]
  | .first w _ a _ b => [(.string, lower w), (.number, a), (.number, b)]
  | .middle a _ w _ b => [(.number, a), (.string, lower w), (.number, b)]

/-- Year and day. -/
def monthParts (order : DateOrder) (D : MonthText) : Bytes × Bytes :=
  if D.readYearFirst order then D.nums else (D.nums.2, D.nums.1)

theorem month_day (order : DateOrder) (m : Int) (bc : Bool) (D : MonthText) :
    D.day m bc (decide (D.readYearFirst order)) =
      namedDay (monthParts order D).1 m (value (monthParts order D).2) bc := by
  unfold MonthText.day monthParts
  by_cases h : D.readYearFirst order <;> simp [h]

theorem month_range {m : Int} {w : Bytes} (h : MonthWord m w) : ∃ ms : Bytes, m = value ms := by
  obtain ⟨s, hs, -⟩ := h
  have : ∀ x ∈ monthWords ++ shortMonthWords, 1 ≤ x.2 ∧ x.2 ≤ 12 := by decide
  have := this _ hs
  refine ⟨[48 + m.toNat], ?_⟩
  simp [value]
  omega

theorem reads_month (p : Profile) (order : DateOrder) {m : Int} {D : MonthText} (hD : D.Ok m) :
    ∃ fits, ReadsDay p order {} (monthFields D) fits (monthParts order D).1 m (value (monthParts order D).2) := by
  cases D with
  | joined x a w b =>
    obtain ⟨hx, hw, ha, hb⟩ := hD
    obtain ⟨⟨e, h1, h2, rfl⟩, -, -, h5, h6, -⟩ := monthWord_entry hw
    obtain ⟨ms, hms⟩ := month_range hw
    have na := DigitsOf.ne ha (by omega)
    have nb := DigitsOf.ne hb (by omega)
    have hr := reads_joined (p := p) (order := order) (m := e.value) ha hb hms
      (split_middle hx ha.1 na h5 h6 hb.1 nb _ (by
        have := List.length_pos_iff.2 na
        have := List.length_pos_iff.2 nb
        have := List.length_pos_iff.2 h6
        simp; omega))
      (fun tm is2 => textPass_number ha.1 (textPass_month h1 h2 h5 h6 (fs := [b]) (by
        intro f hf; rw [List.mem_singleton.1 hf]; exact hb.1)))
      (Or.inr rfl)
    exact ⟨_, hr⟩
  | joinedFirst x w a b =>
    obtain ⟨hx, hw, ha, hb⟩ := hD
    obtain ⟨⟨e, h1, h2, rfl⟩, -, -, h5, h6, -⟩ := monthWord_entry hw
    obtain ⟨ms, hms⟩ := month_range hw
    have na := DigitsOf.ne ha (by omega)
    have nb := DigitsOf.ne hb (by omega)
    have hr := reads_joined (p := p) (order := order) (m := e.value) ha hb hms
      (split_first hx ha.1 na h5 h6 hb.1 nb _ (by
        have := List.length_pos_iff.2 na
        have := List.length_pos_iff.2 nb
        have := List.length_pos_iff.2 h6
        simp; omega))
      (fun tm is2 => textPass_month h1 h2 h5 h6 (fs := [a, b]) (by
        intro f hf
        simp only [List.mem_cons, List.not_mem_nil, or_false] at hf
        rcases hf with rfl | rfl
        · exact ha.1
        · exact hb.1))
      (Or.inl rfl)
    exact ⟨_, hr⟩
  | first w g a h b =>
    obtain ⟨hw, -, -, ha, hb⟩ := hD
    obtain ⟨⟨e, h1, h2, rfl⟩, -⟩ := monthWord_entry hw
    exact ⟨_, by simpa [monthParts, MonthText.readYearFirst, MonthText.nums, monthFields] using
      reads_first (p := p) (order := order) h1 h2 ha hb dayStart_new⟩
  | middle a g w h b =>
    obtain ⟨hw, -, -, ha, hb⟩ := hD
    obtain ⟨⟨e, h1, h2, rfl⟩, -⟩ := monthWord_entry hw
    by_cases hy : 3 ≤ a.length ∨ order = .ymd
    · have : monthParts order (.middle a g w h b) = (a, b) := by
        unfold monthParts; rw [if_pos (show (MonthText.middle a g w h b).readYearFirst order from hy)]; rfl
      rw [this]
      exact ⟨_, reads_middle_year h1 h2 ha hb dayStart_new hy⟩
    · have : monthParts order (.middle a g w h b) = (b, a) := by
        unfold monthParts; rw [if_neg (show ¬ (MonthText.middle a g w h b).readYearFirst order from hy)]; rfl
      rw [this]
      have hl : a.length ≤ 2 := by omega
      cases order with
      | ymd => exact absurd (Or.inr rfl) hy
      | dmy => exact ⟨_, reads_middle_dmy h1 h2 ha hb dayStart_new hl⟩
      | mdy => exact ⟨_, reads_middle_mdy h1 h2 ha hb dayStart_new hl⟩

/-- A comma. -/
theorem Scans.comma {k : TokenField} {s : Bytes} {l : List Field} (hs : Stops isPunct s) (hl : l ≠ [])
    (h : Scans k s l) : Scans k (44 :: s) l := by
  intro fuel cap nf hf hc hn
  simp only [List.length_cons] at hf hc
  obtain ⟨n, rfl⟩ : ∃ n, fuel = n + 1 := ⟨fuel - 1, by omega⟩
  have hpos := List.length_pos_iff.2 hl
  rw [← h n cap nf (by omega) (by omega) hn, scanLoop]
  have e1 : (44 :: s).dropWhile isSpace = 44 :: s := rfl
  rw [e1]
  simp only
  rw [if_neg (by omega), if_neg (by decide), if_pos (by decide)]
  have e2 : (44 :: s).dropWhile isPunct = s := by
    have : (44 :: s) = [44] ++ s := rfl
    rw [this, dropWhile_span (by decide) hs]
  rw [e2]

/-- What is between two parts. -/
theorem Scans.beside {k : TokenField} {g s : Bytes} {l : List Field} (hg : Beside g) (hs : Stops isPunct s)
    (hl : l ≠ []) (h : Scans k s l) : Scans k (g ++ s) l := by
  rcases hg with rfl | rfl | rfl | rfl
  · exact h
  · exact h.space
  · exact Scans.comma hs hl h
  · exact Scans.comma (Stops.cons rfl) hl h.space

theorem digit_punct {a r : Bytes} (ha : Digits a) (na : a ≠ []) : Stops isPunct (a ++ r) := by
  obtain ⟨c, t, e, hc, -⟩ := digit_head (r := r) ha na
  rw [e]
  refine Stops.cons ?_
  rw [isDigit_iff] at hc
  unfold isPunct
  simp
  omega

theorem letter_punct {a r : Bytes} (ha : Letters a) (na : a ≠ []) : Stops isPunct (a ++ r) := by
  obtain ⟨c, t, rfl⟩ := List.exists_cons_of_ne_nil na
  have hc := ha c (by simp)
  refine Stops.cons ?_
  rw [isAlpha_iff] at hc
  unfold isPunct
  simp
  omega

/-- A month name, something between, and a number. -/
theorem Scans.nameDigit {k : TokenField} {w g a r : Bytes} {l : List Field} {e : DateToken} (hw : Letters w) (nw : w ≠ [])
    (he : searchDate (lower w) = .ok (some e)) (hg : Beside g) (ha : Digits a) (na : a ≠ [])
    (hl : l ≠ []) (h : Scans k (a ++ r) l) : Scans k (w ++ (g ++ (a ++ r))) ((.string, lower w) :: l) := by
  have h1 := Scans.beside hg (digit_punct (r := r) ha na) hl h
  obtain ⟨c, t, e1, hc, -⟩ := digit_head (r := r) ha na
  refine Scans.word hw nw ?_ ?_ h1
  · rcases hg with rfl | rfl | rfl | rfl
    · rw [List.nil_append, e1]
      refine Stops.cons ?_
      rw [isDigit_iff] at hc
      rw [Bool.eq_false_iff, ne_eq, isAlpha_iff]; omega
    all_goals exact Stops.cons rfl
  · rcases hg with rfl | rfl | rfl | rfl
    · rw [List.nil_append, e1, alphaIsDate]
      have hne : (c = 45 || c = 47 || c = 46) = false := by
        rw [isDigit_iff] at hc; simp; omega
      simp only [hne, hc, he]
      simp
    all_goals rfl

/-- A number, something between, and a word. -/
theorem Scans.digitBeside {k : TokenField} {a g s : Bytes} {l : List Field} (ha : Digits a) (na : a ≠ [])
    (hg : Between g ∨ (g = [] ∧ Loose s)) (hs : Stops isPunct s) (hl : l ≠ []) (h : Scans k s l) :
    Scans k (a ++ (g ++ s)) ((.number, a) :: l) := by
  have h1 := Scans.beside (hg.elim Or.inr fun h => Or.inl h.1) hs hl h
  refine Scans.number ha na ?_ h1
  rcases hg with (rfl | rfl | rfl) | ⟨rfl, hL⟩
  · exact Stops.cons rfl
  · exact Stops.cons rfl
  · exact Stops.cons rfl
  · exact hL.number

/-- A date group that starts with a number and goes on with a name. -/
theorem Scans.dateName {u : TokenField} {a w b rest : Bytes} {x : Nat} {l : List Field} (hx : isSep x)
    (ha : Digits a) (na : a ≠ []) (hw : Letters w) (nw : w ≠ []) (hb : Digits b)
    (hr : Gap rest) (h : Scans u rest l) :
    Scans u (a ++ x :: (w ++ x :: (b ++ rest))) ((.date, a ++ x :: (lower w ++ x :: b)) :: l) := by
  refine Scans.digit ha na ?_ (by simp [lower]; omega) (by simp) h
  rw [scanDigit, takeWhile_span (digits_isDigit ha) (Stops.cons hx.notDigit),
    dropWhile_span (digits_isDigit ha) (Stops.cons hx.notDigit)]
  simp only
  have hsd : scanDelim x (w ++ x :: (b ++ rest)) = (.date, x :: (lower w ++ x :: b), rest) := by
    have hall : ∀ y ∈ w ++ x :: b, (decide (y = x) || isAlnum y) = true := by
      intro y hy
      rcases List.mem_append.1 hy with hy | hy
      · have := hw y hy
        rw [isAlpha_iff] at this
        have : isAlnum y = true := by rw [isAlnum_iff]; omega
        rw [this]; simp
      · rcases List.mem_cons.1 hy with rfl | hy
        · simp
        · have : isAlnum y = true := by
            have := hb y hy
            rw [isAlnum_iff]; omega
          rw [this]; simp
    have hst : Stops (fun y => decide (y = x) || isAlnum y) rest := by
      refine hr.stops ?_
      rcases hx with rfl | rfl | rfl <;> rfl
    have hlow : lower (w ++ x :: b) = lower w ++ x :: b := by
      unfold lower
      rw [List.map_append, List.map_cons]
      have h1 : lowerB x = x := by rcases hx with rfl | rfl | rfl <;> rfl
      have h2 : b.map lowerB = b := by
        conv => rhs; rw [← List.map_id b]
        refine List.map_congr_left fun y hy => ?_
        have := hb y hy
        unfold lowerB
        rw [if_neg (by simp [isUpper]; omega)]; rfl
      rw [h1, h2]
    obtain ⟨c, t, rfl⟩ := List.exists_cons_of_ne_nil nw
    have hc := hw c (by simp)
    have hnd : isDigit c = false := by
      rw [isAlpha_iff] at hc
      rw [Bool.eq_false_iff, ne_eq, isDigit_iff]; omega
    have e5 : (c :: t) ++ x :: (b ++ rest) = ((c :: t) ++ x :: b) ++ rest := by simp
    rw [e5, List.cons_append, List.cons_append, scanDelim, if_neg (by simp [hnd]), ← List.cons_append, ← List.cons_append,
      takeWhile_span hall hst, dropWhile_span hall hst, hlow]
  rw [hsd]
  rcases hx with rfl | rfl | rfl <;> simp

/-- A date group that starts with a name. -/
theorem Scans.nameDate {u : TokenField} {a w b rest : Bytes} {x : Nat} {l : List Field} (hx : isSep x)
    (ha : Digits a) (hw : Letters w) (nw : w ≠ []) (hb : Digits b)
    (hr : Gap rest) (h : Scans u rest l) :
    Scans u (w ++ x :: (a ++ x :: (b ++ rest))) ((.date, lower w ++ x :: (a ++ x :: b)) :: l) := by
  cases w with
  | nil => exact absurd rfl nw
  | cons c t =>
    have hc := hw c (by simp)
    have hnd : isDigit c = false := by
      rw [isAlpha_iff] at hc
      rw [Bool.eq_false_iff, ne_eq, isDigit_iff]; omega
    have hn46 : c ≠ 46 := by rw [isAlpha_iff] at hc; omega
    have hdig : ∀ {s : Bytes}, Digits s → ∀ y ∈ s, isWordB y = true := by
      intro s hs y hy
      have := hs y hy
      have : isAlnum y = true := by rw [isAlnum_iff]; omega
      unfold isWordB; rw [this]; simp
    have hxw : isWordB x = true := by rcases hx with rfl | rfl | rfl <;> rfl
    have hall : ∀ y ∈ x :: (a ++ x :: b), isWordB y = true := by
      intro y hy
      simp only [List.mem_cons, List.mem_append] at hy
      rcases hy with rfl | hy | rfl | hy
      · exact hxw
      · exact hdig ha y hy
      · exact hxw
      · exact hdig hb y hy
    have e5 : x :: (a ++ x :: (b ++ rest)) = (x :: (a ++ x :: b)) ++ rest := by simp
    rw [List.cons_append]
    refine Scans.field (startB_alpha hc) ?_ (by simp [lower]; omega) (by simp [lower]) h
    have hst : Stops isAlpha (x :: (a ++ x :: (b ++ rest))) := Stops.cons hx.notAlpha
    have hd : alphaIsDate (lower (c :: t)) (x :: (a ++ x :: (b ++ rest))) = .ok true := by
      rcases hx with rfl | rfl | rfl <;> rfl
    rw [scanField, if_neg (by simp [hnd]), if_neg hn46, if_pos hc, scanAlpha, ← List.cons_append,
      takeWhile_span hw hst, dropWhile_span hw hst, hd, Res.bind_ok, if_pos rfl, e5,
      takeWhile_span hall (hr.stops rfl), dropWhile_span hall (hr.stops rfl)]

theorem scans_month (u : TokenField) {m : Int} {D : MonthText} (hD : D.Ok m) {r : Bytes} {l : List Field}
    (hr : if D.isJoined then Gap r else Loose r) (h : Scans u r l) :
    Scans u (D.bytes ++ r) (monthFields D ++ l) := by
  cases D with
  | joined x a w b =>
    obtain ⟨hx, hw, ha, hb⟩ := hD
    obtain ⟨-, h3, h4, -⟩ := monthWord_entry hw
    have := Scans.dateName (u := u) hx ha.1 (DigitsOf.ne ha (by omega)) h3 h4 hb.1 hr h
    simpa [MonthText.bytes, monthFields] using this
  | joinedFirst x w a b =>
    obtain ⟨hx, hw, ha, hb⟩ := hD
    obtain ⟨-, h3, h4, -⟩ := monthWord_entry hw
    have := Scans.nameDate (u := u) hx ha.1 h3 h4 hb.1 hr h
    simpa [MonthText.bytes, monthFields] using this
  | first w g a h' b =>
    obtain ⟨hw, hg, hh, ha, hb⟩ := hD
    obtain ⟨⟨e, h1, -⟩, h3, h4, -⟩ := monthWord_entry hw
    have na := DigitsOf.ne ha (by omega)
    have nb := DigitsOf.ne hb (by omega)
    have s1 := Scans.number (u := u) hb.1 nb (Loose.number hr) h
    have s2 := Scans.digitBeside ha.1 na (Or.inl hh) (digit_punct hb.1 nb) (by simp) s1
    have s3 := Scans.nameDigit h3 h4 h1 hg ha.1 na (by simp) s2
    simpa [MonthText.bytes, monthFields] using s3
  | middle a g w h' b =>
    obtain ⟨hw, hg, hh, ha, hb⟩ := hD
    obtain ⟨⟨e, h1, -⟩, h3, h4, -⟩ := monthWord_entry hw
    have na := DigitsOf.ne ha (by omega)
    have nb := DigitsOf.ne hb (by omega)
    have s1 := Scans.number (u := u) hb.1 nb (Loose.number hr) h
    have s2 := Scans.nameDigit h3 h4 h1 hh hb.1 nb (by simp) s1
    have hL : Loose (w ++ (h' ++ (b ++ r))) := by
      obtain ⟨c, t, rfl⟩ := List.exists_cons_of_ne_nil h4
      intro y hy
      simp only [List.cons_append, List.head?_cons, Option.mem_def, Option.some.injEq] at hy
      exact Or.inr (hy ▸ h3 c (by simp))
    have s3 := Scans.digitBeside ha.1 na (hg.elim (fun e => Or.inr ⟨e, hL⟩) Or.inl)
      (letter_punct h3 h4) (by simp) s2
    simpa [MonthText.bytes, monthFields] using s3

theorem month_len {m : Int} {D : MonthText} (h : D.Ok m) : D.bytes ≠ [] ∧ D.bytes.length ≤ 31 := by
  have hB : ∀ {g : Bytes}, Beside g → g.length ≤ 2 := by
    rintro g (rfl | rfl | rfl | rfl) <;> simp
  cases D with
  | joined x a w b =>
    obtain ⟨-, hw, ha, hb⟩ := h
    obtain ⟨-, -, -, -, -, h7⟩ := monthWord_entry hw
    have := ha.2.2; have := hb.2.2
    exact ⟨by simp [MonthText.bytes], by simp [MonthText.bytes]; omega⟩
  | joinedFirst x w a b =>
    obtain ⟨-, hw, ha, hb⟩ := h
    obtain ⟨-, -, -, -, -, h7⟩ := monthWord_entry hw
    have := ha.2.2; have := hb.2.2
    exact ⟨by simp [MonthText.bytes], by simp [MonthText.bytes]; omega⟩
  | first w g a h' b =>
    obtain ⟨hw, hg, hh, ha, hb⟩ := h
    obtain ⟨-, -, h4, -, -, h7⟩ := monthWord_entry hw
    have := ha.2.2; have := hb.2.2; have := hB hg; have := hB (Or.inr hh)
    exact ⟨by simp [MonthText.bytes, h4], by simp [MonthText.bytes]; omega⟩
  | middle a g w h' b =>
    obtain ⟨hw, hg, hh, ha, hb⟩ := h
    obtain ⟨-, -, h4, -, -, h7⟩ := monthWord_entry hw
    have := ha.2.2; have := hb.2.2; have := hB hg; have := hB hh
    exact ⟨by simp [MonthText.bytes, h4], by simp [MonthText.bytes]; omega⟩

theorem scan_month (u : TokenField) {m : Int} {D : MonthText} (hD : D.Ok m) {clk : Option (DateSep × ClockText)}
    (hT : ClkOk clk) {mer : Option Bool} {t : Bytes} (hm : MeridiemText mer t) (bc : Bool) {text : Bytes}
    (hj : D.isJoined = true → Gap (clkBytes clk ++ (t ++ bcMark bc)))
    (ht : text = D.bytes ++ clkBytes clk ++ t ++ bcMark bc) :
    scan u text = .ok (monthFields D ++ (clkFields clk ++ (merFields mer ++ bcFields bc))) := by
  have e : text = D.bytes ++ (clkBytes clk ++ (t ++ bcMark bc)) := by rw [ht]; simp
  rw [e]
  have hl := month_len hD
  have hb : (bcMark bc).length ≤ 3 := by cases bc <;> simp [bcMark]
  have := clk_len hT
  have := tail_len hm
  have hf : (clkFields clk ++ (merFields mer ++ bcFields bc)).length ≤ 22 := by
    rcases clk with - | ⟨sep, T⟩ <;> cases mer <;> cases bc <;>
      simp [clkFields, merFields, bcFields] <;> cases sep <;> simp [DateSep.fields]
  have hf2 : (monthFields D).length ≤ 3 := by cases D <;> simp [monthFields]
  refine scan_of (scans_month u hD ?_ (scans_clk u hT (loose_tail hm bc) (scans_tail u hm bc))) (by simp [hl.1])
    (by simp; omega) (by rw [List.length_append]; omega)
  cases hjo : D.isJoined with
  | true => exact hj hjo
  | false => exact loose_clk (loose_tail hm bc)

end Pg
