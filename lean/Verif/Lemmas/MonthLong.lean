import Verif.Lemmas.MonthScan
import Verif.Lemmas.Clocks

/-! # Days with a month name and a number of six or more digits, as separate words -/

namespace Pg
open Spec

theorem numberDate_mask (w : Bytes) (s : NumS) : (numberDate w s).2.tMask = 14 := by
  have h : Stays (fun s : NumS => s.tMask = 14) (do
      let (v, _) ← St.lift (str2i32 (w.drop (w.length - 2)))
      St.mod fun s : NumS => { s with tm := { s.tm with mday := v } }
      let (v, _) ← St.lift (str2i32 ((w.drop (w.length - 4)).take 2))
      St.mod fun s : NumS => { s with tm := { s.tm with mon := v } }
      let (v, _) ← St.lift (str2i32 (w.take (w.length - 4)))
      St.mod fun s : NumS => { s with tm := { s.tm with year := v } }
      St.mod fun s : NumS => if w.length - 4 = 2 then { s with is2 := true } else s
      pure TokenField.date) := by
    refine Stays.liftBind fun a _ => Stays.modBind (fun s h => h) (Stays.liftBind fun a _ => ?_)
    refine Stays.modBind (fun s h => h) (Stays.liftBind fun a _ => ?_)
    refine Stays.modBind (fun s h => h) (Stays.modBind (fun s h => ?_) Stays.pure)
    split <;> exact h
  unfold numberDate
  dsimp only
  rw [St.mod_bind]
  exact h _ rfl

section
variable {p : Profile} {order : DateOrder} {ft : List TokenField} {i : Nat} {d : Dec}

/-- A number of six or more digits, before the date is complete. -/
theorem field_long {f : Bytes} (hf : Digits f) (hl : 6 ≤ f.length) (hp : d.pType = .number)
    (ht : d.fMask &&& DTK_TIME_M = 0) (hm : d.fMask &&& 14 ≠ 14) :
    (∃ e s, dateTimeField p plainLook order ft i (.number, f) (d, ()) = (.err e, s)) ∨
    (d.fMask &&& 14 = 0 ∧ ∃ X : Dec, X.fMask = d.fMask ||| 14 ∧
      dateTimeField p plainLook order ft i (.number, f) (d, ()) = (.ok (), (X, ()))) := by
  obtain ⟨r, n, hr⟩ : ∃ r n, numberDate f ⟨d.tMask, d.tm, d.fSec, d.is2⟩ = (r, n) := ⟨_, _, rfl⟩
  have h14 : n.tMask = 14 := by
    have := numberDate_mask f ⟨d.tMask, d.tm, d.fSec, d.is2⟩
    rw [hr] at this; exact this
  have hnp : r ≠ .panic := by
    have := (numberDate_calm f ⟨d.tMask, d.tm, d.fSec, d.is2⟩ trivial).1
    rw [hr] at this; exact this
  have hfield : decodeNumberField f d.fMask ⟨d.tMask, d.tm, d.fSec, d.is2⟩ = (r, n) := by
    unfold decodeNumberField
    rw [St.ite_run, if_neg (by rw [dotPos_digits hf]; simp), St.ite_run, if_pos ⟨hm, hl⟩, hr]
  have hrun : noLook (onNum (decodeNumberField f d.fMask)) (d, ()) =
      (r, ({ d with tMask := n.tMask, tm := n.tm, fSec := n.fsec, is2 := n.is2 }, ())) :=
    noLook_run (onNum_run hfield)
  have htok : ∀ k : St (Dec × Unit) Unit, (numberToken p plainLook f order >>= fun _ => k) (d, ()) =
      ((noLook (onNum (decodeNumberField f d.fMask)) >>= fun _ => pure ()) >>= fun _ => k) (d, ()) := by
    intro k
    have : numberToken p plainLook f order (d, ()) =
        (noLook (onNum (decodeNumberField f d.fMask)) >>= fun _ => pure ()) (d, ()) := by
      unfold numberToken
      rw [St.bind_ok (noLook_run (St.get_run _)), St.ite_run, if_neg (by rw [hp]; decide), St.ite_run,
        if_neg (by rw [dotPos_digits hf]; tauto), St.ite_run, if_neg (by rw [dotPos_digits hf]; tauto), St.ite_run,
        if_pos ⟨hl, Or.inr ht⟩]
    rw [St.bind_run, St.bind_run, this]
  unfold dateTimeField
  simp only
  rw [htok]
  cases r with
  | panic => exact absurd rfl hnp
  | err e => exact Or.inl ⟨e, _, St.bind_err (St.bind_err hrun)⟩
  | ok t =>
    have h2 : (noLook (onNum (decodeNumberField f d.fMask)) >>= fun _ => pure () : St (Dec × Unit) Unit) (d, ()) =
        (.ok (), ({ d with tMask := n.tMask, tm := n.tm, fSec := n.fsec, is2 := n.is2 }, ())) := by
      rw [St.bind_ok hrun]; rfl
    rw [St.bind_ok h2]
    by_cases h0 : d.fMask &&& 14 = 0
    · refine Or.inr ⟨h0, _, ?_, noLook_run (addMask_run (by
        show n.tMask &&& d.fMask = 0
        rw [h14, Nat.and_comm]; exact h0))⟩
      show d.fMask ||| n.tMask = _
      rw [h14]
    · exact Or.inl ⟨_, _, noLook_run (addMask_err (by
        show n.tMask &&& d.fMask ≠ 0
        rw [h14, Nat.and_comm]; exact h0))⟩

/-- A month name after a whole date. -/
theorem field_month_late {w : Bytes} {e : DateToken} (hs : searchDate w = .ok (some e)) (hty : e.ty = .month)
    (h2 : d.fMask &&& 2 = 2) (h8 : d.fMask &&& 8 ≠ 0) :
    ∃ s, dateTimeField p plainLook order ft i (.string, w) (d, ()) = (.err .invalid, s) := by
  have hl : lookDate plainLook i w (d, ()) = (.ok (e.ty, e.value), (d, ())) := by
    unfold lookDate plainLook
    simp only [hs]
    rfl
  have ha : wordAction ft i e.ty e.value d =
      (.ok (), { d with tm := { d.tm with mon := e.value }, textMonth := true, tMask := 2 }) := by
    rw [hty]
    unfold wordAction
    rw [St.mod_bind]
    simp only
    unfold monthWord
    rw [St.mod_run, if_neg (by rintro ⟨-, -, q, -⟩; exact h8 q)]
    rfl
  have e : wordToken plainLook ft i w (d, ()) =
      (.ok false, ({ d with tm := { d.tm with mon := e.value }, textMonth := true, tMask := 2 }, ())) := by
    unfold wordToken
    rw [St.bind_ok hl]
    simp only
    rw [St.ite_run, if_neg (by rw [hty]; decide), St.bind_ok (noLook_run ha)]
    rfl
  unfold dateTimeField
  simp only
  rw [St.bind_ok e]
  simp only [Bool.false_eq_true, if_false]
  exact ⟨_, noLook_run (addMask_err (by
    show 2 &&& d.fMask ≠ 0
    rw [Nat.and_comm, h2]; decide))⟩

end

/-- A long number after a part of the date. -/
theorem long_err {p : Profile} {order : DateOrder} {ft : List TokenField} {i : Nat} {d : Dec} {f : Bytes} {fs : List Field}
    (hf : Digits f) (hl : 6 ≤ f.length) (hp : d.pType = .number)
    (ht : d.fMask &&& DTK_TIME_M = 0) (h0 : d.fMask &&& 14 ≠ 0) (hm : d.fMask &&& 14 ≠ 14) :
    ∃ e s, dateTimeLoop p plainLook order ft ((.number, f) :: fs) i (d, ()) = (.err e, s) := by
  rcases field_long (p := p) (order := order) (ft := ft) (i := i) hf hl hp ht hm with ⟨e, s, h⟩ | ⟨h, -⟩
  · exact ⟨e, s, loop_cons_err h⟩
  · exact absurd h h0

theorem month_long_loop (p : Profile) (order : DateOrder) {m : Int} {D : MonthText} (hD : D.Long m) (ft : List TokenField)
    (rest : List Field) :
    ∃ e s, dateTimeLoop p plainLook order ft (monthFields D ++ rest) 0 ({}, ()) = (.err e, s) := by
  cases D with
  | joined x a w b => exact hD.elim
  | joinedFirst x w a b => exact hD.elim
  | first w g a h b =>
    obtain ⟨hw, -, -, ha, hb, na, nb, hl, -⟩ := hD
    obtain ⟨⟨e, h1, h2, -⟩, -⟩ := monthWord_entry hw
    have s1 := field_month (p := p) (order := order) (ft := ft) (i := 0) (d := {}) h1 h2 (by decide)
    by_cases hla : 6 ≤ a.length
    · obtain ⟨e, s, h⟩ := long_err (p := p) (order := order) (ft := ft) (i := 1) (fs := (.number, b) :: rest)
        (d := { ({} : Dec) with tm := { ({} : Dec).tm with mon := e.value }, textMonth := true, tMask := 2, fMask := 0 ||| 2 })
        ha hla rfl (by show (0 ||| 2) &&& DTK_TIME_M = 0; decide) (by dsimp only; decide) (by dsimp only; decide)
      exact ⟨e, s, (loop_cons s1).trans h⟩
    · have s2 := plain_day (p := p) (order := order) (ft := ft) (i := 1) (f := a)
        (d := { ({} : Dec) with tm := { ({} : Dec).tm with mon := e.value }, textMonth := true, tMask := 2, fMask := 0 ||| 2 })
        ⟨ha, List.length_pos_iff.2 na, by omega⟩ rfl (Or.inr (Or.inl (by dsimp only; decide))) (by dsimp only; decide)
      obtain ⟨e, s, h⟩ := long_err (p := p) (order := order) (ft := ft) (i := 2) (fs := rest)
        (d := { ({} : Dec) with tm := { ({} : Dec).tm with mon := e.value, mday := value a }, textMonth := true, tMask := 8,
                                fMask := 0 ||| 2 ||| 8 })
        hb (by omega) rfl (by show (0 ||| 2 ||| 8) &&& DTK_TIME_M = 0; decide) (by dsimp only; decide) (by dsimp only; decide)
      exact ⟨e, s, (loop_cons s1).trans ((loop_cons s2).trans h)⟩
  | middle a g w h b =>
    obtain ⟨hw, -, -, ha, hb, na, nb, hl, -⟩ := hD
    obtain ⟨⟨e, h1, h2, -⟩, -⟩ := monthWord_entry hw
    by_cases hla : 6 ≤ a.length
    · rcases field_long (p := p) (order := order) (ft := ft) (i := 0) (d := {}) ha hla rfl
        (by show 0 &&& DTK_TIME_M = 0; decide) (by decide) with ⟨e, s, h⟩ | ⟨-, X, hX, h⟩
      · exact ⟨e, s, loop_cons_err h⟩
      · obtain ⟨s, h'⟩ := field_month_late (p := p) (order := order) (ft := ft) (i := 1) (d := X) h1 h2
          (by rw [hX]; decide) (by rw [hX]; decide)
        exact ⟨_, s, (loop_cons h).trans (loop_cons_err h')⟩
    · have hda : DigitsOf 1 5 a := ⟨ha, List.length_pos_iff.2 na, by omega⟩
      have hlb : 6 ≤ b.length := by omega
      by_cases hy : 3 ≤ a.length ∨ order = .ymd
      · have s1 := plain_year (p := p) (order := order) (ft := ft) (i := 0) (f := a) (d := {}) hda rfl
          (Or.inl ⟨by decide, hy⟩) (by decide)
        have s2 := field_month (p := p) (order := order) (ft := ft) (i := 1)
          (d := { ({} : Dec) with tm := { ({} : Dec).tm with year := value a }, is2 := decide (a.length ≤ 2), tMask := 4,
                                  fMask := 0 ||| 4 }) h1 h2 (by dsimp only; decide)
        obtain ⟨e, s, h⟩ := long_err (p := p) (order := order) (ft := ft) (i := 2) (fs := rest)
          (d := { ({} : Dec) with tm := { ({} : Dec).tm with year := value a, mon := e.value }, is2 := decide (a.length ≤ 2),
                                  textMonth := true, tMask := 2, fMask := 0 ||| 4 ||| 2 })
          hb hlb rfl (by show (0 ||| 4 ||| 2) &&& DTK_TIME_M = 0; decide) (by dsimp only; decide) (by dsimp only; decide)
        exact ⟨e, s, (loop_cons s1).trans ((loop_cons s2).trans h)⟩
      · have hl2 : a.length ≤ 2 := by omega
        cases order with
        | ymd => exact absurd (Or.inr rfl) hy
        | dmy =>
          have s1 := plain_day (p := p) (order := .dmy) (ft := ft) (i := 0) (f := a) (d := {}) hda rfl
            (Or.inl ⟨by decide, hl2, rfl⟩) (by decide)
          have s2 := field_month (p := p) (order := .dmy) (ft := ft) (i := 1)
            (d := { ({} : Dec) with tm := { ({} : Dec).tm with mday := value a }, tMask := 8, fMask := 0 ||| 8 })
            h1 h2 (by dsimp only; decide)
          obtain ⟨e, s, h⟩ := long_err (p := p) (order := .dmy) (ft := ft) (i := 2) (fs := rest)
            (d := { ({} : Dec) with tm := { ({} : Dec).tm with mday := value a, mon := e.value },
                                    textMonth := true, tMask := 2, fMask := 0 ||| 8 ||| 2 })
            hb hlb rfl (by show (0 ||| 8 ||| 2) &&& DTK_TIME_M = 0; decide) (by dsimp only; decide) (by dsimp only; decide)
          exact ⟨e, s, (loop_cons s1).trans ((loop_cons s2).trans h)⟩
        | mdy =>
          have s1 := plain_month (p := p) (order := .mdy) (ft := ft) (i := 0) (f := a) (d := {}) hda rfl
            (Or.inl ⟨by decide, hl2, rfl⟩) (by decide)
          have s2 := field_month_swap (p := p) (order := .mdy) (ft := ft) (i := 1)
            (d := { ({} : Dec) with tm := { ({} : Dec).tm with mon := value a }, tMask := 2, fMask := 0 ||| 2 })
            h1 h2 (by dsimp only; decide) (by dsimp only; decide) rfl
          by_cases hr : 1 ≤ value a ∧ value a ≤ 31
          · rw [if_pos (by simp only; omega)] at s2
            obtain ⟨e, s, h⟩ := long_err (p := p) (order := .mdy) (ft := ft) (i := 2) (fs := rest)
              (d := { ({} : Dec) with tm := { ({} : Dec).tm with mday := value a, mon := e.value },
                                      textMonth := true, tMask := 8, fMask := 0 ||| 2 ||| 8 })
              hb hlb rfl (by show (0 ||| 2 ||| 8) &&& DTK_TIME_M = 0; decide) (by dsimp only; decide) (by dsimp only; decide)
            exact ⟨e, s, (loop_cons s1).trans ((loop_cons s2).trans h)⟩
          · rw [if_neg (by simp only; omega)] at s2
            obtain ⟨s, s2⟩ := s2
            exact ⟨_, s, (loop_cons s1).trans (loop_cons_err s2)⟩

theorem scans_long (u : TokenField) {m : Int} {D : MonthText} (hD : D.Long m) {r : Bytes} {l : List Field}
    (hr : Loose r) (h : Scans u r l) : Scans u (D.bytes ++ r) (monthFields D ++ l) := by
  cases D with
  | joined x a w b => exact hD.elim
  | joinedFirst x w a b => exact hD.elim
  | first w g a h' b =>
    obtain ⟨hw, hg, hh, ha, hb, na, nb, -⟩ := hD
    obtain ⟨⟨e, h1, -⟩, h3, h4, -⟩ := monthWord_entry hw
    have s1 := Scans.number (u := u) hb nb (Loose.number hr) h
    have s2 := Scans.digitBeside ha na (Or.inl hh) (digit_punct hb nb) (by simp) s1
    have s3 := Scans.nameDigit h3 h4 h1 hg ha na (by simp) s2
    simpa [MonthText.bytes, monthFields] using s3
  | middle a g w h' b =>
    obtain ⟨hw, hg, hh, ha, hb, na, nb, -⟩ := hD
    obtain ⟨⟨e, h1, -⟩, h3, h4, -⟩ := monthWord_entry hw
    have s1 := Scans.number (u := u) hb nb (Loose.number hr) h
    have s2 := Scans.nameDigit h3 h4 h1 hh hb nb (by simp) s1
    have hL : Loose (w ++ (h' ++ (b ++ r))) := by
      obtain ⟨c, t, rfl⟩ := List.exists_cons_of_ne_nil h4
      intro y hy
      simp only [List.cons_append, List.head?_cons, Option.mem_def, Option.some.injEq] at hy
      exact Or.inr (hy ▸ h3 c (by simp))
    have s3 := Scans.digitBeside ha na (hg.elim (fun e => Or.inr ⟨e, hL⟩) Or.inl)
      (letter_punct h3 h4) (by simp) s2
    simpa [MonthText.bytes, monthFields] using s3

theorem scan_long (u : TokenField) {m : Int} {D : MonthText} (hD : D.Long m) {clk : Option (DateSep × ClockText)}
    (hT : ClkOk clk) {mer : Option Bool} {t : Bytes} (hm : MeridiemText mer t) (bc : Bool) {text : Bytes}
    (ht : text = D.bytes ++ clkBytes clk ++ t ++ bcMark bc) :
    scan u text = .ok (monthFields D ++ (clkFields clk ++ (merFields mer ++ bcFields bc))) := by
  have e : text = D.bytes ++ (clkBytes clk ++ (t ++ bcMark bc)) := by rw [ht]; simp
  rw [e]
  have hl : D.bytes ≠ [] ∧ D.bytes.length ≤ 60 := by
    cases D with
    | joined x a w b => exact hD.elim
    | joinedFirst x w a b => exact hD.elim
    | first w g a h' b =>
      obtain ⟨hw, -, -, -, -, -, -, -, h⟩ := hD
      obtain ⟨-, -, h4, -⟩ := monthWord_entry hw
      exact ⟨by simp [MonthText.bytes, h4], h⟩
    | middle a g w h' b =>
      obtain ⟨hw, -, -, -, -, -, -, -, h⟩ := hD
      obtain ⟨-, -, h4, -⟩ := monthWord_entry hw
      exact ⟨by simp [MonthText.bytes, h4], h⟩
  have hb : (bcMark bc).length ≤ 3 := by cases bc <;> simp [bcMark]
  have := clk_len hT
  have := tail_len hm
  have hf : (clkFields clk ++ (merFields mer ++ bcFields bc)).length ≤ 22 := by
    rcases clk with - | ⟨sep, T⟩ <;> cases mer <;> cases bc <;>
      simp [clkFields, merFields, bcFields] <;> cases sep <;> simp [DateSep.fields]
  have hf2 : (monthFields D).length ≤ 3 := by cases D <;> simp [monthFields]
  exact scan_of (scans_long u hD (loose_clk (loose_tail hm bc)) (scans_clk u hT (loose_tail hm bc) (scans_tail u hm bc)))
    (by simp [hl.1]) (by simp; omega) (by rw [List.length_append]; omega)

section
variable {p : Profile} {order : DateOrder} {u : TokenField} {c : Caches} {m : Int} {D : MonthText}
  {clk : Option (DateSep × ClockText)} {mer : Option Bool} {t text : Bytes} {bc : Bool}

theorem decode_long (p : Profile) (order : DateOrder) (hD : D.Long m) (rest : List Field) :
    ∃ e d, decodeDateTime p plainLook order (monthFields D ++ rest) ({}, ()) = (.err e, (d, ())) := by
  obtain ⟨e, s, h⟩ := month_long_loop p order hD ((monthFields D ++ rest).map Prod.fst) rest
  refine ⟨e, s.1, ?_⟩
  unfold decodeDateTime
  rw [St.bind_err h]

theorem date_long (hc : c.Ok) (hD : D.Long m) (hT : ClkOk clk) (hm : MeridiemText mer t)
    (ht : text = D.bytes ++ clkBytes clk ++ t ++ bcMark bc) : (Date.tryFromStr p u c text order).IsErr := by
  obtain ⟨e, d, h⟩ := decode_long p order hD (clkFields clk ++ (merFields mer ++ bcFields bc))
  rw [date_run p u hc order (scan_long u hD hT hm bc ht) h]
  exact ⟨e, rfl⟩

theorem timestamp_long (hc : c.Ok) (hD : D.Long m) (hT : ClkOk clk) (hm : MeridiemText mer t) (typmod : Int)
    (ht : text = D.bytes ++ clkBytes clk ++ t ++ bcMark bc) : (Timestamp.tryFromStr p u c text typmod order).IsErr := by
  obtain ⟨e, d, h⟩ := decode_long p order hD (clkFields clk ++ (merFields mer ++ bcFields bc))
  rw [timestamp_run p u hc typmod order (scan_long u hD hT hm bc ht) h]
  exact ⟨e, rfl⟩

end

end Pg
