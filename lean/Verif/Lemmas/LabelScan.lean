import Verif.Lemmas.Labels

/-! # Julian day numbers; scanning labelled numbers -/

namespace Pg
open Spec

section
variable {p : Profile} {order : DateOrder}

/-- The day with a Julian day number. -/
def julianYmd (n : Int) : YMD := ⟨(j2dCore n).1, (j2dCore n).2.1, (j2dCore n).2.2⟩

theorem julianYmd_real (n : Int) : (julianYmd n).Real := (j2dCore_spec n).2

theorem julianYmd_number (n : Int) : dayNumber (julianYmd n) = n - 2451545 := by
  have h : dayNumber (julianYmd n) + 2451545 = n := (j2dCore_spec n).1
  omega

/-- What the final check gives. -/
def julianDay (n : Nat) : Bool → Option YMD := fun _ => if n ≤ 2147483647 then some (julianYmd n) else none

/-- The state after a Julian day number. -/
def julianDec (n : Int) : Dec :=
  { tm := ({} : PgTime).setYmd (j2dCore n), tMask := 14, fMask := 14, isJulian := true, pType := .number, dType := .date }

def julianFields (J : JulianText) : List Field := [(.string, lower J.word), (.number, J.digits)]

theorem julian_word {J : JulianText} (hJ : J.Ok) : ∃ s, (s, TokenField.julian) ∈ unitTable ∧ SameButCase J.word s := by
  obtain ⟨⟨w, hw, h⟩, -⟩ := hJ
  refine ⟨w, ?_, h⟩
  simp only [julianWords, List.mem_cons, List.not_mem_nil, or_false] at hw
  rcases hw with rfl | rfl | rfl <;> simp [unitTable]

theorem validateDate_julian (tm : PgTime) {m : Nat} (is2 bc : Bool) (hm : m &&& 14 = 14) (hd : m &&& 32768 = 0) :
    tm.validateDate p m true is2 bc =
      if (⟨tm.year, tm.mon, tm.mday⟩ : YMD).Real then .ok tm else .err .overflow := by
  have b1 : hasBits m 4 = true := by unfold hasBits; rw [and_sub (b := 4) hm (by decide)]; rfl
  have b2 : hasBits m 32768 = false := by unfold hasBits; rw [hd]; rfl
  unfold PgTime.validateDate PgTime.validateYear PgTime.validateDoy
  rw [b1, b2]
  simp only [if_true, Bool.false_eq_true, if_false, Res.bind_ok]
  exact validateMonthDay_gen tm hm

/-- A Julian day number. -/
theorem reads_julian {J : JulianText} (hJ : J.Ok) (b : Bool) :
    ReadsDate p order {} (julianFields J) (value J.digits ≤ 2147483647) b (julianDay (value J.digits)) := by
  obtain ⟨s, hs, hw⟩ := julian_word hJ
  obtain ⟨⟨e, h1, h2, h3⟩, -⟩ := labelUnit_entry hs hw
  obtain ⟨-, -, hd⟩ := hJ
  have nd := DigitsOf.ne hd (by omega)
  have hw' := fun ft i => field_units (p := p) (order := order) (ft := ft) (i := i) (d := {}) h1 h2 h3
  refine ⟨?_, ?_, ?_⟩
  · intro hf
    have hk : NumOk J.digits := ⟨hd.2.2, hf⟩
    refine ⟨julianDec (value J.digits), ⟨rfl, rfl, rfl, rfl, by simp [julianDec], rfl, rfl, rfl, rfl, ?_⟩, ?_⟩
    · intro tm m e1 e2 e3 e4 e5
      have m14 : m &&& 14 = 14 := by
        have : (m &&& 32782) &&& 14 = 14 := by rw [e5]; simp [julianDec]
        rwa [Nat.and_assoc] at this
      have mdoy : m &&& 32768 = 0 := by
        have : (m &&& 32782) &&& 32768 = 0 := by rw [e5]; simp [julianDec]
        rwa [Nat.and_assoc] at this
      have e1 : tm.year = (julianYmd (value J.digits)).y := e1
      have e2 : tm.mon = (julianYmd (value J.digits)).m := e2
      have e3 : tm.mday = (julianYmd (value J.digits)).d := e3
      have hr := julianYmd_real (value J.digits)
      unfold julianDay
      rw [if_pos hf]
      refine ⟨hr, ?_⟩
      have j : (julianDec (value J.digits)).isJulian = true := rfl
      rw [j, validateDate_julian tm _ b m14 mdoy, if_pos]
      · rw [← e1, ← e2, ← e3]
      · rw [e1, e2, e3]; exact hr
    · intro ft i rest
      have ha : labelAssign p .julian J.digits (value J.digits) [] { tMask := 0, pType := .julian } =
          (.ok (), { tm := ({} : PgTime).setYmd (j2dCore (value J.digits)), tMask := 14, isJulian := true,
                     pType := .julian }) := by
        unfold labelAssign labelJulian
        simp only
        rw [St.ite_run, if_neg (by omega), St.mod_bind, julian2date_core p _ (by omega) (by omega), St.lift_ok_bind,
          St.mod_bind]
        rfl
      have hb := labelled_digits (p := p) (d := { tMask := 0, pType := .julian }) hd.1 nd hk ha
      have hc := numberToken_label (order := order) (ft := ft) (i := i + 1) (by simp) hb (by simp)
      simp only [Nat.zero_or] at hc
      exact Eq.trans (loop_cons (hw' ft i)) (loop_cons hc)
  · intro hf ft i rest
    have hk : ¬ NumOk J.digits := fun h => hf h.2
    obtain ⟨s, hb⟩ := labelled_big (p := p) (d := { tMask := 0, pType := .julian }) hd.1 nd hk
    obtain ⟨e, s, hb⟩ := numberToken_labelErr (order := order) (ft := ft) (i := i + 1) (by simp) hb
    exact ⟨e, s, Eq.trans (loop_cons (hw' ft i)) (loop_cons_err hb)⟩
  · intro hf c hc
    unfold julianDay at hc
    rw [if_neg hf] at hc
    cases hc

end

theorem loose_letters {w s : Bytes} (hw : Letters w) (nw : w ≠ []) : Loose (w ++ s) := by
  obtain ⟨c, t, rfl⟩ := List.exists_cons_of_ne_nil nw
  intro y hy
  simp only [List.cons_append, List.head?_cons, Option.mem_def, Option.some.injEq] at hy
  exact Or.inr (hy ▸ hw c (by simp))

/-- A label, something between, and a number. -/
theorem Scans.label {u : TokenField} {w g ds r s : Bytes} {f : TokenField} {l : List Field} (hs : (s, f) ∈ unitTable)
    (hw : SameButCase w s) (hg : Beside g) (hd : Digits ds) (nd : ds ≠ [])
    (h : Scans u (ds ++ r) ((.number, ds) :: l)) :
    Scans u (w ++ (g ++ (ds ++ r))) ((.string, lower w) :: (.number, ds) :: l) := by
  obtain ⟨⟨e, h1, -⟩, h3, h4, -⟩ := labelUnit_entry hs hw
  exact Scans.nameDigit h3 h4 h1 hg hd nd (by simp) h

theorem scans_julian (u : TokenField) {J : JulianText} (hJ : J.Ok) {r : Bytes} {l : List Field} (hr : Loose r)
    (h : Scans u r l) : Scans u (J.bytes ++ r) (julianFields J ++ l) := by
  obtain ⟨s, hs, hw⟩ := julian_word hJ
  obtain ⟨-, hg, hd⟩ := hJ
  have nd := DigitsOf.ne hd (by omega)
  have := Scans.label hs hw hg hd.1 nd (Scans.number (u := u) hd.1 nd (Loose.number hr) h)
  simpa [JulianText.bytes, julianFields] using this

/-- A labelled number before something. -/
theorem scans_part (u : TokenField) {P : LabelPart} (hP : P.Ok) {g r : Bytes} {l : List Field} (hg : Beside g)
    (hr : Loose r) (hp : g = [] ∨ Stops isPunct r) (hl : g = [] ∨ l ≠ [])
    (h : Scans u r l) : Scans u (P.bytes ++ (g ++ r)) (partFields P ++ l) := by
  obtain ⟨hw, hg', hd⟩ := hP
  have nd := DigitsOf.ne hd (by omega)
  have h1 : Scans u (P.digits ++ (g ++ r)) ((.number, P.digits) :: l) := by
    rcases hg with rfl | hg
    · exact Scans.number hd.1 nd (Loose.number hr) h
    · have ne : g ≠ [] := by rcases hg with rfl | rfl | rfl <;> simp
      exact Scans.digitBeside hd.1 nd (Or.inl hg) (hp.resolve_left ne) (hl.resolve_left ne) h
  have := Scans.label (label_word P.label) hw hg' hd.1 nd h1
  simpa [LabelPart.bytes, partFields] using this

theorem scans_label (u : TokenField) {D : LabelText} (hD : D.Ok) {r : Bytes} {l : List Field} (hr : Loose r)
    (h : Scans u r l) : Scans u (D.bytes ++ r) (labelFields D ++ l) := by
  obtain ⟨ha, hb, hc, hg, hh, -⟩ := hD
  have s1 := scans_part u hc (g := []) (Or.inl rfl) hr (Or.inl rfl) (Or.inl rfl) h
  have kb := labelUnit_entry (label_word D.b.label) hb.1
  have kc := labelUnit_entry (label_word D.c.label) hc.1
  have s2 := scans_part u hb (g := D.h) (r := D.c.bytes ++ ([] ++ r)) hh
    (by rw [LabelPart.bytes, List.append_assoc]; exact loose_letters kc.2.1 kc.2.2.1)
    (Or.inr (by rw [LabelPart.bytes, List.append_assoc]; exact letter_punct kc.2.1 kc.2.2.1))
    (Or.inr (by simp [partFields])) s1
  have s3 := scans_part u ha (g := D.g) (r := D.b.bytes ++ (D.h ++ (D.c.bytes ++ ([] ++ r)))) hg
    (by rw [LabelPart.bytes, List.append_assoc]; exact loose_letters kb.2.1 kb.2.2.1)
    (Or.inr (by rw [LabelPart.bytes, List.append_assoc]; exact letter_punct kb.2.1 kb.2.2.1))
    (Or.inr (by simp [partFields])) s2
  simpa [LabelText.bytes, labelFields] using s3

theorem beside_len {g : Bytes} (h : Beside g) : g.length ≤ 2 := by
  rcases h with rfl | rfl | rfl | rfl <;> simp

/-- Scanning a day and what follows it. -/
theorem scan_day (u : TokenField) {D : Bytes} {F : List Field} (n : D ≠ []) (hl : D.length ≤ 60) (hF : F.length ≤ 18)
    (hS : ∀ {r : Bytes} {l : List Field}, Loose r → Scans u r l → Scans u (D ++ r) (F ++ l))
    {clk : Option (DateSep × ClockText)}
    (hT : ClkOk clk) {mer : Option Bool} {t : Bytes} (hm : MeridiemText mer t) (bc : Bool) {text : Bytes}
    (ht : text = D ++ clkBytes clk ++ t ++ bcMark bc) :
    scan u text = .ok (F ++ (clkFields clk ++ (merFields mer ++ bcFields bc))) := by
  have e : text = D ++ (clkBytes clk ++ (t ++ bcMark bc)) := by rw [ht]; simp
  rw [e]
  have hb : (bcMark bc).length ≤ 3 := by cases bc <;> simp [bcMark]
  have := clk_len hT
  have := tail_len hm
  have hf : (clkFields clk ++ (merFields mer ++ bcFields bc)).length ≤ 5 := by
    rcases clk with - | ⟨sep, T⟩ <;> cases mer <;> cases bc <;>
      simp [clkFields, merFields, bcFields] <;> cases sep <;> simp [DateSep.fields]
  refine scan_of (hS (loose_clk (loose_tail hm bc)) (scans_clk u hT (loose_tail hm bc) (scans_tail u hm bc))) (by simp [n])
    (by simp; omega) (by rw [List.length_append]; omega)

theorem label_len {D : LabelText} (hD : D.Ok) : D.bytes ≠ [] ∧ D.bytes.length ≤ 60 := by
  obtain ⟨ha, hb, hc, hg, hh, -⟩ := hD
  have k : ∀ {P : LabelPart}, P.Ok → P.bytes ≠ [] ∧ P.bytes.length ≤ 18 := by
    rintro P ⟨h1, h2, h3⟩
    have k := labelUnit_entry (label_word P.label) h1
    have := beside_len h2
    have := h3.2.2
    exact ⟨fun h => k.2.2.1 (List.append_eq_nil_iff.1 h).1, by simp [LabelPart.bytes]; omega⟩
  have ka := k ha; have := k hb; have := k hc; have := beside_len hg; have := beside_len hh
  exact ⟨fun h => ka.1 (List.append_eq_nil_iff.1 h).1, by simp [LabelText.bytes]; omega⟩

theorem julian_len {J : JulianText} (hJ : J.Ok) : J.bytes ≠ [] ∧ J.bytes.length ≤ 60 := by
  obtain ⟨s, hs, hw⟩ := julian_word hJ
  obtain ⟨-, h2, h3⟩ := hJ
  have k := labelUnit_entry hs hw
  have := beside_len h2
  have := h3.2.2
  exact ⟨fun h => k.2.2.1 (List.append_eq_nil_iff.1 h).1, by simp [JulianText.bytes]; omega⟩

end Pg
