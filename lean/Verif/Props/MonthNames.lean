import Verif.Lemmas.MonthLong
import Verif.Props.Forms

/-!
# Property C61: days with a month name

A month name and two numbers, as one group (`08-Jan-1999`, `Jan-08-1999`) or as separate words (`January 8, 1999`,
`8 January 1999`, `1999 January 8`). `c` is the state of the thread's keyword caches, `u` the uninitialised type of a
lone sign.
-/

namespace Props
open Pg Spec

/-- What `Date::try_from_str` does with a day with a month name, optionally with ` BC`. -/
theorem C61_date_exact (p : Profile) (u : TokenField) (c : Caches) (hc : c.Ok) (order : DateOrder) (m : Int) (D : MonthText)
    (hD : D.Ok m) (bc : Bool) :
    match D.day m bc (decide (D.readYearFirst order)) with
    | none => (Date.tryFromStr p u c (D.bytes ++ bcMark bc) order).IsErr
    | some day =>
      if day.InDateRange then Date.tryFromStr p u c (D.bytes ++ bcMark bc) order = .ok ⟨dayNumber day⟩
      else (Date.tryFromStr p u c (D.bytes ++ bcMark bc) order).IsErr := by
  obtain ⟨fits, hF⟩ := reads_month p order hD
  have h := date_any (clk := none) (mer := none) (bc := bc) (u := u) (text := D.bytes ++ bcMark bc) hF hc trivial
    (scan_month (clk := none) (mer := none) (t := []) u hD trivial rfl bc
      (fun _ => by cases bc; exact Or.inl rfl; exact Or.inr ⟨_, rfl⟩) (by simp [clkBytes]))
  rw [← month_day] at h
  cases hd : D.day m bc (decide (D.readYearFirst order)) with
  | none => rw [hd] at h; exact h
  | some day =>
    rw [hd] at h
    simp only [hourOf, ClkAccepted, true_and] at h ⊢
    have hr : day.Real := by rw [month_day] at hd; exact namedDay_real hd
    exact ite_of h (inDateRange_iff hr)

/-- What `Timestamp::try_from_str` does with a day with a month name and a clock time (after a space, or `T` if the day is
written as separate words). -/
theorem C61_timestamp_exact (p : Profile) (u : TokenField) (c : Caches) (hc : c.Ok) (order : DateOrder) (m : Int)
    (D : MonthText) (hD : D.Ok m) (y : Nat) (hy : y = 32 ∨ (y = 84 ∧ D.isJoined = false)) (T : ClockText) (hT : T.Ok)
    (mer : Option Bool) (t : Bytes)
    (ht : MeridiemText mer t) (bc : Bool) (text : Bytes) (he : text = D.bytes ++ [y] ++ T.bytes ++ t ++ bcMark bc) :
    ∃ us, NearestMicros T.frac us ∧
      match D.day m bc (decide (D.readYearFirst order)), hourOf mer T.h with
      | some day, some k =>
        if (T.colons = true → ClockInput T.h T.m T.s us) ∧ TsRange (instant day ⟨k, T.m, T.s, us⟩) then
          Timestamp.tryFromStr p u c text (-1) order = .ok ⟨instant day ⟨k, T.m, T.s, us⟩⟩
        else (Timestamp.tryFromStr p u c text (-1) order).IsErr
      | _, _ => (Timestamp.tryFromStr p u c text (-1) order).IsErr := by
  obtain ⟨sep, hsep, hgap⟩ : ∃ sep : DateSep, sep.bytes = [y] ∧ (D.isJoined = true → sep.bytes = [32]) := by
    rcases hy with rfl | ⟨rfl, hj⟩
    · exact ⟨.space, rfl, fun _ => rfl⟩
    · exact ⟨.letterT, rfl, fun h => by rw [hj] at h; cases h⟩
  refine ⟨clockUs T, clockUs_nearest hT, ?_⟩
  obtain ⟨fits, hF⟩ := reads_month p order hD
  have h := timestamp_any (clk := some (sep, T)) (mer := mer) (bc := bc) (u := u) (text := text) hF hc hT
    (scan_month (clk := some (sep, T)) u hD hT ht bc
      (fun hj => by rw [clkBytes, hgap hj]; exact Or.inr ⟨_, rfl⟩) (by rw [he, clkBytes, hsep]; simp))
  rw [← month_day] at h
  cases hd : D.day m bc (decide (D.readYearFirst order)) with
  | none => rw [hd] at h; exact h
  | some day =>
    cases hk : hourOf mer T.h with
    | none =>
      rw [hd] at h
      simp only [clkH, hk] at h
      exact h
    | some k =>
      rw [hd] at h
      simp only [clkH, hk] at h
      exact ite_of h Iff.rfl

/-- **C61, dates (partial).** A day with a month name is read as the day it names: a number of three or more digits is the
year, and of two shorter numbers the first is the year exactly in the order year-month-day. Missing: days written as
separate words on which the code's reading differs from this rule; see `C61_violated`. -/
theorem C61_date_partial (p : Profile) (u : TokenField) (c : Caches) (hc : c.Ok) (order : DateOrder) (m : Int) (D : MonthText)
    (hD : D.Ok m) (hn : D.isJoined = true ∨ (D.readYearFirst order ↔ yearFirst order D.nums.1 D.nums.2)) (bc : Bool) :
    match D.day m bc (decide (yearFirst order D.nums.1 D.nums.2)) with
    | none => (Date.tryFromStr p u c (D.bytes ++ bcMark bc) order).IsErr
    | some day =>
      if day.InDateRange then Date.tryFromStr p u c (D.bytes ++ bcMark bc) order = .ok ⟨dayNumber day⟩
      else (Date.tryFromStr p u c (D.bytes ++ bcMark bc) order).IsErr := by
  have e : D.readYearFirst order ↔ yearFirst order D.nums.1 D.nums.2 := by
    rcases hn with hj | hn
    · cases D with
      | joined x a w b => exact Iff.rfl
      | joinedFirst x w a b => exact Iff.rfl
      | first w g a h b => cases hj
      | middle a g w h b => cases hj
    · exact hn
  have := C61_date_exact p u c hc order m D hD bc
  rw [decide_eq_decide.2 e] at this
  exact this

/-- **C61, timestamps (partial).** The same with a clock time as in C59. -/
theorem C61_timestamp_partial (p : Profile) (u : TokenField) (c : Caches) (hc : c.Ok) (order : DateOrder) (m : Int)
    (D : MonthText) (hD : D.Ok m) (hn : D.isJoined = true ∨ (D.readYearFirst order ↔ yearFirst order D.nums.1 D.nums.2))
    (y : Nat) (hy : y = 32 ∨ (y = 84 ∧ D.isJoined = false)) (T : ClockText) (hT : T.Ok)
    (mer : Option Bool) (t : Bytes)
    (ht : MeridiemText mer t) (bc : Bool) (text : Bytes) (he : text = D.bytes ++ [y] ++ T.bytes ++ t ++ bcMark bc) :
    ∃ us, NearestMicros T.frac us ∧
      ((T.colons = false → ClockInput T.h T.m T.s us) →
        match D.day m bc (decide (yearFirst order D.nums.1 D.nums.2)), hourOf mer T.h with
        | some day, some k =>
          if ClockInput T.h T.m T.s us ∧ TsRange (instant day ⟨k, T.m, T.s, us⟩) then
            Timestamp.tryFromStr p u c text (-1) order = .ok ⟨instant day ⟨k, T.m, T.s, us⟩⟩
          else (Timestamp.tryFromStr p u c text (-1) order).IsErr
        | _, _ => (Timestamp.tryFromStr p u c text (-1) order).IsErr) := by
  have e : D.readYearFirst order ↔ yearFirst order D.nums.1 D.nums.2 := by
    rcases hn with hj | hn
    · cases D with
      | joined x a w b => exact Iff.rfl
      | joinedFirst x w a b => exact Iff.rfl
      | first w g a h b => cases hj
      | middle a g w h b => cases hj
    · exact hn
  obtain ⟨us, h1, h⟩ := C61_timestamp_exact p u c hc order m D hD y hy T hT mer t ht bc text he
  refine ⟨us, h1, fun hci => ?_⟩
  rw [decide_eq_decide.2 e] at h
  cases hd : D.day m bc (decide (yearFirst order D.nums.1 D.nums.2)) with
  | none => rw [hd] at h; exact h
  | some day =>
    cases hk : hourOf mer T.h with
    | none => rw [hd, hk] at h; exact h
    | some k =>
      rw [hd, hk] at h
      refine ite_of h ?_
      cases hcol : T.colons
      · have := hci hcol
        simp [this]
      · simp

/-- As separate words, a number of six or more digits is never accepted beside a month name: it is taken for a whole date.
With or without a clock time. -/
theorem C61_long (p : Profile) (u : TokenField) (c : Caches) (hc : c.Ok) (order : DateOrder) (m : Int) (D : MonthText)
    (hD : D.Long m) (bc : Bool) :
    (Date.tryFromStr p u c (D.bytes ++ bcMark bc) order).IsErr ∧
    (∀ typmod, (Timestamp.tryFromStr p u c (D.bytes ++ bcMark bc) typmod order).IsErr) ∧
    ∀ (y : Nat), y = 32 ∨ y = 84 → ∀ T : ClockText, T.Ok → ∀ mer t, MeridiemText mer t → ∀ typmod,
      (Timestamp.tryFromStr p u c (D.bytes ++ [y] ++ T.bytes ++ t ++ bcMark bc) typmod order).IsErr := by
  refine ⟨date_long (clk := none) (mer := none) (t := []) (bc := bc) hc hD trivial rfl (by simp [clkBytes]),
    fun typmod => timestamp_long (clk := none) (mer := none) (t := []) (bc := bc) hc hD trivial rfl typmod
      (by simp [clkBytes]), fun y hy T hT mer t ht typmod => ?_⟩
  rcases hy with rfl | rfl
  · exact timestamp_long (clk := some (.space, T)) (bc := bc) hc hD hT ht typmod (by simp [clkBytes, DateSep.bytes])
  · exact timestamp_long (clk := some (.letterT, T)) (bc := bc) hc hD hT ht typmod (by simp [clkBytes, DateSep.bytes])

theorem monthWord_jan : MonthWord 1 b!"jAn" := ⟨b!"jan", by decide, by unfold SameButCase; decide⟩
theorem monthWord_december : MonthWord 12 b!"December" := ⟨b!"december", by decide, by unfold SameButCase; decide⟩

example : (MonthText.joined 45 b!"8" b!"jAn" b!"1999").Ok 1 ∧
    (MonthText.joined 45 b!"8" b!"jAn" b!"1999").day 1 false (decide (yearFirst .ymd b!"8" b!"1999")) = some ⟨1999, 1, 8⟩ ∧
    Date.tryFromStr .debug .date Caches.new b!"8-jAn-1999" .ymd = .ok ⟨dayNumber ⟨1999, 1, 8⟩⟩ :=
  ⟨⟨by decide, monthWord_jan, by decide, by decide⟩, by decide +kernel, by decide +kernel⟩
example : (MonthText.first b!"December" [32] b!"25" [44, 32] b!"0001").Ok 12 ∧
    (¬ MonthText.readYearFirst .mdy (.first b!"December" [32] b!"25" [44, 32] b!"0001") ∧
      ¬ yearFirst .mdy b!"25" b!"0001") ∧
    Date.tryFromStr .debug .date Caches.new b!"December 25, 0001 BC" .mdy = .ok ⟨dayNumber ⟨0, 12, 25⟩⟩ ∧
    Timestamp.tryFromStr .debug .date Caches.new b!"December 25, 0001T7:08 pm BC" (-1) .mdy =
      .ok ⟨instant ⟨0, 12, 25⟩ ⟨19, 8, 0, 0⟩⟩ :=
  ⟨⟨monthWord_december, Or.inr (Or.inl rfl), Or.inr (Or.inr rfl), by decide, by decide⟩, ⟨id, by decide⟩,
    by decide +kernel, by decide +kernel⟩
example : Date.tryFromStr .debug .date Caches.new b!"99-Jan-08" .ymd = .ok ⟨dayNumber ⟨1999, 1, 8⟩⟩ ∧
    Date.tryFromStr .debug .date Caches.new b!"08-Jan-99" .dmy = .ok ⟨dayNumber ⟨1999, 1, 8⟩⟩ ∧
    Date.tryFromStr .debug .date Caches.new b!"Jan-08-99" .mdy = .ok ⟨dayNumber ⟨1999, 1, 8⟩⟩ ∧
    Date.tryFromStr .debug .date Caches.new b!"1999Jan8" .dmy = .ok ⟨dayNumber ⟨1999, 1, 8⟩⟩ ∧
    (Date.tryFromStr .debug .date Caches.new b!"30 february 2024" .dmy) = .err .overflow := by decide +kernel

/-- **C61 (violated).** Days written as separate words do not all follow the rule: `8 Jan 1999` is refused in the order
year-month-day, and `Jan 1999 8` in every order, although the rule names a day and the same parts in one group are
read. -/
theorem C61_violated :
    (∃ D : MonthText, D.Ok 1 ∧ D.bytes = b!"8 jAn 1999" ∧
      D.day 1 false (decide (yearFirst .ymd D.nums.1 D.nums.2)) = some ⟨1999, 1, 8⟩) ∧
    (∀ p, Date.tryFromStr p .date Caches.new b!"8 jAn 1999" .ymd = .err .overflow) ∧
    (∃ D : MonthText, D.Ok 1 ∧ D.bytes = b!"jAn 1999 8" ∧
      ∀ order, D.day 1 false (decide (yearFirst order D.nums.1 D.nums.2)) = some ⟨1999, 1, 8⟩) ∧
    (∀ p order, Date.tryFromStr p .date Caches.new b!"jAn 1999 8" order = .err .overflow) ∧
    (∀ p, Date.tryFromStr p .date Caches.new b!"8-jAn-1999" .ymd = .ok ⟨dayNumber ⟨1999, 1, 8⟩⟩) ∧
    (∀ p order, Date.tryFromStr p .date Caches.new b!"jAn-1999-8" order = .ok ⟨dayNumber ⟨1999, 1, 8⟩⟩) := by
  refine ⟨⟨.middle b!"8" [32] b!"jAn" [32] b!"1999", ⟨monthWord_jan, Or.inr (Or.inl rfl), Or.inr (Or.inl rfl), by decide,
    by decide⟩, rfl, by decide +kernel⟩, ?_, ⟨.first b!"jAn" [32] b!"1999" [32] b!"8", ⟨monthWord_jan, Or.inr (Or.inl rfl),
    Or.inl rfl, by decide, by decide⟩, rfl, ?_⟩, ?_, ?_, ?_⟩
  · intro p; cases p <;> decide +kernel
  · intro o; cases o <;> decide +kernel
  · intro p o; cases p <;> cases o <;> decide +kernel
  · intro p; cases p <;> decide +kernel
  · intro p o; cases p <;> cases o <;> decide +kernel

/-- **C61 (violated).** `January 8, 123456` names a day of the supported range, but is refused in every order; as one group
it is read. -/
theorem C61_long_violated :
    (∃ D : MonthText, D.Long 1 ∧ D.bytes = b!"jAn 8, 123456" ∧
      (∀ order, D.day 1 false (decide (yearFirst order D.nums.1 D.nums.2)) = some ⟨123456, 1, 8⟩) ∧
      YMD.InDateRange ⟨123456, 1, 8⟩) ∧
    (∀ p u c order, Caches.Ok c → (Date.tryFromStr p u c b!"jAn 8, 123456" order).IsErr) ∧
    (∀ p order, Date.tryFromStr p .date Caches.new b!"jAn-8-123456" order = .ok ⟨dayNumber ⟨123456, 1, 8⟩⟩) := by
  have hD : (MonthText.first b!"jAn" [32] b!"8" [44, 32] b!"123456").Long 1 :=
    ⟨monthWord_jan, Or.inr (Or.inl rfl), Or.inr (Or.inr rfl), by unfold Digits; decide, by unfold Digits; decide, by decide, by decide, by decide, by decide⟩
  refine ⟨⟨_, hD, rfl, ?_, by decide +kernel⟩, fun p u c order hc => (C61_long p u c hc order 1 _ hD false).1, ?_⟩
  · intro o; cases o <;> decide +kernel
  · intro p o; cases p <;> cases o <;> decide +kernel

example : (MonthText.middle b!"19990108" [32] b!"jAn" [32] b!"8").Long 1 :=
  ⟨monthWord_jan, Or.inr (Or.inl rfl), Or.inr (Or.inl rfl), by unfold Digits; decide, by unfold Digits; decide, by decide, by decide, by decide, by decide⟩

end Props
