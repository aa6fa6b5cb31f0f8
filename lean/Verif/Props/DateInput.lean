import Verif.Lemmas.DateBack
import Verif.Props.Format
import Verif.Props.ClockInput

/-!
# Properties C34, C46 (timestamps) and C56: numeric dates and timestamps on input

`cs` is the state of the thread's keyword caches, `u` the uninitialised type of a lone sign.
-/

namespace Props
open Pg Spec

/-! ## C56 -/

/-- **C56.** A text of three numbers (of up to ten digits) with the same separator `-`, `/` or `.`,
optionally followed by ` BC`, is read as the day that the numbers name in the given date order, if there
is such a day and it is in range; otherwise it is an error. (If the year comes first, a second number of
exactly three digits is a day of the year; that case is excluded.) -/
theorem C56_numeric_date (p : Profile) (u : TokenField) (cs : Caches) (hcs : cs.Ok) (order : DateOrder) (bc : Bool)
    (x : Nat) (hx : x = 45 ∨ x = 47 ∨ x = 46) (a b c : Bytes) (ha : Digits a) (hb : Digits b) (hc : Digits c)
    (la : 1 ≤ a.length ∧ a.length ≤ 10) (lb : 1 ≤ b.length ∧ b.length ≤ 10) (lc : 1 ≤ c.length ∧ c.length ≤ 10)
    (h3 : b.length ≠ 3) :
    match inputDay order a b c bc with
    | none => (Date.tryFromStr p u cs (numericDate x a b c ++ bcMark bc) order).IsErr
    | some day =>
      if day.InDateRange then
        Date.tryFromStr p u cs (numericDate x a b c ++ bcMark bc) order = .ok ⟨dayNumber day⟩
      else (Date.tryFromStr p u cs (numericDate x a b c ++ bcMark bc) order).IsErr := by
  have h := date_numeric p u hcs order bc hx ha (by rintro rfl; simp at la) hb (by rintro rfl; simp at lb) hc
    (by rintro rfl; simp at lc) la.2 lb.2 lc.2 (fun _ => h3)
  cases hd : inputDay order a b c bc with
  | none => rw [hd] at h; exact h
  | some day =>
    rw [hd] at h
    simp only at h ⊢
    have hr : day.Real := by
      unfold inputDay namedDay at hd
      simp only at hd
      split at hd
      · cases hd
      · split at hd
        · injection hd with hd; subst hd; assumption
        · cases hd
    simp only [inDateRange_iff hr]
    exact h

/-- **C56, two-digit years.** A first or last number of one or two digits that is taken as the year means
a year from 1970 to 2069. -/
theorem C56_two_digits (ys : Bytes) (h : Digits ys) (hl : ys.length ≤ 2) :
    ∃ y, inputYear ys false = some y ∧ 1970 ≤ y ∧ y ≤ 2069 ∧ y % 100 = value ys := by
  have hv := value_lt h
  have hp : 10 ^ ys.length ≤ 10 ^ 2 := Nat.pow_le_pow_right (by omega) hl
  unfold inputYear
  rw [if_neg (by simp), if_pos hl]
  refine ⟨_, rfl, ?_⟩
  split <;> omega

example : Date.tryFromStr .debug .date Caches.new b!"5/6/69" .dmy = .ok ⟨25358⟩ ∧
    numericDate 47 b!"5" b!"6" b!"69" = b!"5/6/69" ∧
    inputDay .dmy b!"5" b!"6" b!"69" false = some ⟨2069, 6, 5⟩ ∧ dayNumber ⟨2069, 6, 5⟩ = 25358 := by
  decide +kernel
example : Date.tryFromStr .debug .date Caches.new b!"0044-03-15 BC" .mdy = .ok ⟨-746117⟩ ∧
    inputDay .mdy b!"0044" b!"03" b!"15" true = some ⟨-43, 3, 15⟩ ∧ dayNumber ⟨-43, 3, 15⟩ = -746117 := by
  decide +kernel
example : (Date.tryFromStr .debug .date Caches.new b!"2023-02-29" .ymd).IsErr ∧
    inputDay .ymd b!"2023" b!"02" b!"29" false = none :=
  ⟨⟨.overflow, by decide +kernel⟩, by decide +kernel⟩

/-! ## C34 -/

/-- Date text as a numeric date. -/
theorem dateText_numeric {st : DateStyle} {o : DateOrder} (h : ¬ (st = .postgres ∧ o = .dmy)) (c : YMD) :
    dateText st o c = numericDate (sepOf st) (partsOf st o c).1 (partsOf st o c).2.1 (partsOf st o c).2.2 ++
      bcMark (decide (c.y ≤ 0)) := by
  rw [dateText, dayText_parts st o c h, bcMark_era]

/-- Reading a printed day, in any style but Postgres with the day first. -/
theorem dateText_parse (p : Profile) (u : TokenField) {cs : Caches} (hcs : cs.Ok) {st : DateStyle} {o : DateOrder}
    (h : ¬ (st = .postgres ∧ o = .dmy)) {c : YMD} (hr : c.Real) (hc : DateRange (dayNumber c)) (o' : DateOrder) :
    match inputDay o' (partsOf st o c).1 (partsOf st o c).2.1 (partsOf st o c).2.2 (decide (c.y ≤ 0)) with
    | none => (Date.tryFromStr p u cs (dateText st o c) o').IsErr
    | some day =>
      if DateRange (dayNumber day) then Date.tryFromStr p u cs (dateText st o c) o' = .ok ⟨dayNumber day⟩
      else (Date.tryFromStr p u cs (dateText st o c) o').IsErr := by
  have hb := real_bounds hr
  have hy : -4713 ≤ c.y ∧ c.y ≤ 5874897 := by
    constructor
    · by_contra hlt; exact not_dateRange_of_year' hr (by omega) hc
    · by_contra hlt; exact not_dateRange_of_year hr (by omega) hc
  have hdig := partsOf_all (P := Digits) st o c (yearText_digits _) (two_digits _) (two_digits _)
  have hne := partsOf_all (P := fun v => v ≠ []) st o c (yearText_ne _) (two_ne _) (two_ne _)
  have hlen := partsOf_all (P := fun v => v.length ≤ 10) st o c
    (le_trans (yearText_len (by omega)) (by omega)) (le_trans (two_len_le (by omega)) (by omega))
    (le_trans (two_len_le (by omega)) (by omega))
  rw [dateText_numeric h]
  exact date_numeric p u hcs o' _ (sepOf_sep st) hdig.1 hne.1 hdig.2.1 hne.2.1 hdig.2.2 hne.2.2
    hlen.1 hlen.2.1 hlen.2.2 (fun _ => by rw [partsOf_second st o hr]; omega)

/-- **C34 (partial).** In the styles ISO and XSD with any order, SQL with DMY and MDY, German with DMY and
Postgres with MDY, every valid finite date is read back from its text. Missing: the other combinations,
for which it is false (see below). -/
theorem C34_partial (p p' : Profile) (u : TokenField) (cs : Caches) (hcs : cs.Ok) (junk : Bytes)
    (hj : junk.length = 128) (d : Date) (hd : DateRange d.v) (st : DateStyle) (o : DateOrder)
    (h : st = .iso ∨ st = .xsd ∨ (st = .sql ∧ o ≠ .ymd) ∨ (st = .german ∧ o = .dmy) ∨
      (st = .postgres ∧ o = .mdy)) :
    ∃ text, d.format p junk st o = .ok text ∧ Date.tryFromStr p' u cs text o = .ok d := by
  obtain ⟨c, hr, hn, hf⟩ := date_format_eq p junk hj d hd st o
  refine ⟨_, hf, ?_⟩
  have hro : readsBack st o = true := by
    rcases h with rfl | rfl | ⟨rfl, h⟩ | ⟨rfl, rfl⟩ | ⟨rfl, rfl⟩ <;> first
      | rfl
      | (cases o <;> first | rfl | exact absurd rfl h)
  have hp := dateText_parse p' u hcs (st := st) (o := o)
    (by rintro ⟨rfl, rfl⟩; exact absurd hro (by decide)) hr (by rw [hn]; exact hd) o
  rw [inputDay_parts hro hr] at hp
  simp only at hp
  rw [if_pos (by rw [hn]; exact hd)] at hp
  rw [hp, hn]

/-- **C34 is violated:** in the German style with the order MDY no date whose day and month differ is read
back. -/
theorem C34_german_mdy_violated (p p' : Profile) (u : TokenField) (cs : Caches) (hcs : cs.Ok) (junk : Bytes)
    (hj : junk.length = 128) (c : YMD) (hr : c.Real) (hd : DateRange (dayNumber c)) (hne : c.d ≠ c.m) :
    ∃ text, (⟨dayNumber c⟩ : Date).format p junk .german .mdy = .ok text ∧
      Date.tryFromStr p' u cs text .mdy ≠ .ok ⟨dayNumber c⟩ := by
  refine ⟨_, C33_text p junk hj c hr hd .german .mdy, ?_⟩
  have hb := real_bounds hr
  have hp := dateText_parse p' u hcs (st := .german) (o := .mdy) (by simp) hr hd .mdy
  simp only [partsOf] at hp
  rw [inputDay_last _ _ _ _ (by omega) (by omega)] at hp
  simp only at hp
  intro he
  rw [he] at hp
  unfold namedDay at hp
  rw [inputYear_yearText] at hp
  simp only at hp
  by_cases hr' : (⟨c.y, c.d, c.m⟩ : YMD).Real
  · rw [if_pos hr'] at hp
    simp only at hp
    split at hp
    · injection hp with hp
      injection hp with hp
      have := dayNumber_inj hr hr' hp
      rw [YMD.mk.injEq] at this
      exact hne this.2.2
    · obtain ⟨_, h⟩ := hp; cases h
  · rw [if_neg hr'] at hp
    obtain ⟨_, h⟩ := hp; cases h

/-- **C34 is violated:** in the styles SQL, German and Postgres with the order YMD no date from 1 AD on is
read back. -/
theorem C34_ymd_violated (p p' : Profile) (u : TokenField) (cs : Caches) (hcs : cs.Ok) (junk : Bytes)
    (hj : junk.length = 128) (c : YMD) (hr : c.Real) (hd : DateRange (dayNumber c)) (hy : 1 ≤ c.y)
    (st : DateStyle) (hst : st = .sql ∨ st = .german ∨ st = .postgres) :
    ∃ text, (⟨dayNumber c⟩ : Date).format p junk st .ymd = .ok text ∧
      Date.tryFromStr p' u cs text .ymd ≠ .ok ⟨dayNumber c⟩ := by
  refine ⟨_, C33_text p junk hj c hr hd st .ymd, ?_⟩
  have hb := real_bounds hr
  have hp := dateText_parse p' u hcs (st := st) (o := .ymd) (by simp) hr hd .ymd
  intro he
  rw [he] at hp
  -- the year of the result is that of a two-digit number, the day of the result is the year
  have key : ∀ a b : Int, 1 ≤ a ∧ a ≤ 31 → 1 ≤ b ∧ b ≤ 31 →
      (match inputDay .ymd (two a) (two b) (yearText c.y) (decide (c.y ≤ 0)) with
        | none => (Res.ok (⟨dayNumber c⟩ : Date)).IsErr
        | some day => if DateRange (dayNumber day) then Res.ok (⟨dayNumber c⟩ : Date) = .ok ⟨dayNumber day⟩
            else (Res.ok (⟨dayNumber c⟩ : Date)).IsErr) → False := by
    intro a b ha hb' h
    rw [inputDay_last _ _ _ _ (by omega) (by omega)] at h
    simp only at h
    have hva := two_value (v := a) (by omega)
    have hvy := yearText_value c.y
    rw [if_pos (by omega)] at hvy
    have hiy : inputYear (two a) (decide (c.y ≤ 0)) = some (a + 2000) := by
      unfold inputYear
      rw [if_neg (by simp; omega), if_pos (by rw [two_len (by omega)]), if_pos (by omega), hva]
    unfold namedDay at h
    rw [hiy, hvy] at h
    simp only at h
    by_cases hr' : (⟨a + 2000, b, c.y⟩ : YMD).Real
    · rw [if_pos hr'] at h
      simp only at h
      split at h
      · injection h with h
        injection h with h
        have := dayNumber_inj hr hr' h
        have e1 := congrArg YMD.y this
        have e2 := real_bounds hr'
        simp only at e1 e2
        omega
      · obtain ⟨_, h⟩ := h; cases h
    · rw [if_neg hr'] at h
      obtain ⟨_, h⟩ := h; cases h
  rcases hst with rfl | rfl | rfl
  · exact key c.m c.d (by omega) (by omega) hp
  · exact key c.d c.m (by omega) (by omega) hp
  · exact key c.m c.d (by omega) (by omega) hp

/-- **C34 is violated:** in the Postgres style with the order DMY, where dates are printed as `dd-mm.yyyy`,
no date can be read back at all. -/
theorem C34_postgres_dmy_violated (p p' : Profile) (u : TokenField) (cs : Caches) (hcs : cs.Ok) (junk : Bytes)
    (hj : junk.length = 128) (d : Date) (hd : DateRange d.v) :
    ∃ text, d.format p junk .postgres .dmy = .ok text ∧ (Date.tryFromStr p' u cs text .dmy).IsErr := by
  obtain ⟨c, hr, hn, hf⟩ := date_format_eq p junk hj d hd .postgres .dmy
  refine ⟨_, hf, ?_⟩
  have hb := real_bounds hr
  have hlen := dateText_len .postgres .dmy (c := c) (by
    rw [← hn] at hd
    constructor
    · by_contra hlt; exact not_dateRange_of_year' hr (by omega) hd
    · by_contra hlt; exact not_dateRange_of_year hr (by omega) hd) (by omega) (by omega)
  have et : dateText .postgres .dmy c =
      two c.d ++ 45 :: (two c.m ++ (46 :: (yearText c.y ++ bcMark (decide (c.y ≤ 0))))) := by
    rw [dateText, bcMark_era]; simp [dayText]
  have hs2 : Scans u (46 :: (yearText c.y ++ bcMark (decide (c.y ≤ 0))))
      ((.number, 46 :: yearText c.y) :: bcFields (decide (c.y ≤ 0))) := by
    have hst : Stops isDigit (bcMark (decide (c.y ≤ 0))) := by
      cases decide (c.y ≤ 0)
      · exact Stops.nil _
      · exact Stops.cons rfl
    refine Scans.field (by decide) ?_ (by simp; omega) (by simp) (scans_bc u _)
    rw [scanField, if_neg (by decide), if_pos rfl, scanDot, takeWhile_span (digits_isDigit (yearText_digits _)) hst,
      dropWhile_span (digits_isDigit (yearText_digits _)) hst]
  have hs1 := Scans.digit (u := u) (two_digits c.d) (two_ne c.d)
    (f := (.date, two c.d ++ 45 :: two c.m))
    (s := 45 :: (two c.m ++ (46 :: (yearText c.y ++ bcMark (decide (c.y ≤ 0))))))
    (rest := 46 :: (yearText c.y ++ bcMark (decide (c.y ≤ 0)))) (by
      rw [scanDigit, takeWhile_span (digits_isDigit (two_digits _)) (Stops.cons rfl),
        dropWhile_span (digits_isDigit (two_digits _)) (Stops.cons rfl)]
      obtain ⟨y, t, e, hy, -⟩ := digit_head (r := 46 :: (yearText c.y ++ bcMark (decide (c.y ≤ 0))))
        (two_digits c.m) (two_ne c.m)
      have : scanDelim 45 (two c.m ++ (46 :: (yearText c.y ++ bcMark (decide (c.y ≤ 0))))) =
          (.date, 45 :: two c.m, 46 :: (yearText c.y ++ bcMark (decide (c.y ≤ 0)))) := by
        rw [e, scanDelim, if_pos hy, ← e, takeWhile_span (digits_isDigit (two_digits _)) (Stops.cons rfl),
          dropWhile_span (digits_isDigit (two_digits _)) (Stops.cons rfl)]
        simp
      simp [this]) (by simp; omega) (by simp) hs2
  rw [et] at hlen ⊢
  have hs := scan_of hs1 (by simp) (by omega) (by
    cases decide (c.y ≤ 0) <;> simp [bcFields])
  -- the first field has no year
  have hk : ∀ v : Int, 0 ≤ v ∧ v ≤ 99 → NumOk (two v) := by
    intro v hv
    have h1 := two_len hv
    have h2 := two_value hv.1
    exact ⟨by omega, by omega⟩
  have hsp : dateSplit ((two c.d ++ 45 :: two c.m).length + 1) (two c.d ++ 45 :: two c.m) 0 =
      .ok [two c.d, two c.m] := by
    have l1 := two_len (v := c.d) (by omega)
    have l2 := two_len (v := c.m) (by omega)
    have hl6 : (two c.d ++ 45 :: two c.m).length + 1 = 6 := by simp [l1, l2]
    have h3 : dateSplit 4 [] 2 = .ok [] := rfl
    have h2 := dateSplit_number (fuel := 4) (nf := 1) (pre := [45]) (two_digits c.m) (two_ne c.m) (Stops.nil _)
      (by omega) h3 (by intro x hx; cases hx with | head => rfl | tail _ h => cases h)
    rw [List.append_nil] at h2
    have h1 := dateSplit_number (fuel := 5) (nf := 0) (pre := []) (two_digits c.d) (two_ne c.d)
      (Stops.cons rfl) (by omega) h2 (by intro x hx; cases hx)
    rw [hl6]
    exact h1
  have hnp : numPass .dmy [some (two c.d), some (two c.m)] { tm := {}, is2 := false, fMask := 0 } =
      (.ok (), { tm := { mday := value (two c.d), mon := value (two c.m) }, is2 := false, tMask := 10, dMask := 2,
                 fMask := 10 }) := by
    rw [numPass_day (two_digits _) (two_ne _) (hk _ (by omega))
      (Or.inl ⟨by decide, by rw [two_len (by omega)], rfl⟩) (by decide),
      numPass_month (two_digits _) (two_ne _) (hk _ (by omega)) (Or.inr (Or.inr (by decide))) (by decide)]
    rfl
  have hbody : ∃ t, dateBody plainLook (two c.d ++ 45 :: two c.m) .dmy
      (({ tm := {}, is2 := false, fMask := 0 } : DateS), ()) = (.err .invalid, t) := by
    unfold dateBody
    rw [hsp, St.lift_ok_bind, St.bind_ok (textPass_numbers plainLook _ 0 _ (by
      intro f hf
      simp only [List.mem_cons, List.not_mem_nil, or_false] at hf
      rcases hf with rfl | rfl <;> exact two_digits _)), List.map_cons, List.map_cons, List.map_nil,
      St.bind_ok (noLook_run hnp), St.bind_ok (noLook_run (St.get_run _)), St.ite_run,
      if_pos (show (10 : Nat) &&& 4294934495 ≠ 14 by decide)]
    exact ⟨_, rfl⟩
  obtain ⟨⟨t, w⟩, hbody⟩ := hbody
  have hfld : ∃ s, dateTimeField p' plainLook .dmy
      (((.date, two c.d ++ 45 :: two c.m) :: (.number, 46 :: yearText c.y) :: bcFields (decide (c.y ≤ 0)) :
        List Field).map Prod.fst) 0 (.date, two c.d ++ 45 :: two c.m) ({}, ()) = (.err .invalid, s) := by
    have e := decodeDate_run (s := {}) hbody
    have e2 : dateToken p' plainLook (two c.d ++ 45 :: two c.m) .dmy ({}, ()) = (.err .invalid, _) := e
    exact ⟨_, St.bind_err e2⟩
  obtain ⟨⟨s, w'⟩, hfld⟩ := hfld
  have hrun := dateTime_err p' .dmy (loop_cons_err hfld)
  rw [date_run p' u hcs .dmy hs hrun]
  exact ⟨_, rfl⟩

example : (⟨8825⟩ : Date).format .debug (List.replicate 128 7) .sql .dmy = .ok b!"29/02/2024" ∧
    Date.tryFromStr .debug .date Caches.new b!"29/02/2024" .dmy = .ok ⟨8825⟩ := by decide +kernel
example : Date.tryFromStr .debug .date Caches.new b!"05.03.2024" .mdy = .ok ⟨8889⟩ ∧
    dayNumber ⟨2024, 3, 5⟩ = 8830 ∧ dateText .german .mdy ⟨2024, 3, 5⟩ = b!"05.03.2024" := by decide +kernel
example : Date.tryFromStr .debug .date Caches.new b!"02/03/0005" .ymd = .ok ⟨794⟩ ∧
    dateText .sql .ymd ⟨5, 2, 3⟩ = b!"02/03/0005" ∧ dayNumber ⟨2002, 3, 5⟩ = 794 := by decide +kernel
example : DateRange 8825 ∧ DateRange (dayNumber ⟨2024, 3, 5⟩) ∧ (⟨2024, 3, 5⟩ : YMD).Real := by decide

/-! ## C46 for timestamps -/

/-- **C46, timestamps (partial).** A numeric date (as in C56), a space or `T`, and a clock time
`hh:mm:ss[.f]` (numbers of up to ten digits, a fraction of up to seven), optionally followed by ` BC`, is
read as that instant, with the fraction rounded to a nearest microsecond, if the date is a day, the clock
time is from 00:00:00 to 24:00:00 with minutes up to 59 and seconds up to 60, and the instant is in range;
otherwise it is an error. -/
theorem C46_timestamp_partial (p : Profile) (u : TokenField) (cs : Caches) (hcs : cs.Ok) (order : DateOrder)
    (bc : Bool) (x : Nat) (hx : x = 45 ∨ x = 47 ∨ x = 46) (a b c : Bytes) (ha : Digits a) (hb : Digits b)
    (hc : Digits c) (la : 1 ≤ a.length ∧ a.length ≤ 10) (lb : 1 ≤ b.length ∧ b.length ≤ 10)
    (lc : 1 ≤ c.length ∧ c.length ≤ 10) (h3 : b.length ≠ 3) (y : Nat) (hy : y = 32 ∨ y = 84)
    (hh mm ss : Bytes) (f : Option Bytes) (h1 : Digits hh) (n1 : hh ≠ []) (h2 : Digits mm) (n2 : mm ≠ [])
    (h4 : Digits ss) (n4 : ss ≠ []) (hf : Digits (f.getD []))
    (hs : hh.length ≤ 10 ∧ mm.length ≤ 10 ∧ ss.length ≤ 10 ∧ (f.getD []).length ≤ 7) (text : Bytes)
    (ht : text = numericDate x a b c ++ [y] ++ hmsText hh mm ss f ++ bcMark bc) :
    ∃ us, NearestMicros (f.getD []) us ∧
      match inputDay order a b c bc with
      | none => (Timestamp.tryFromStr p u cs text (-1) order).IsErr
      | some day =>
        if ClockInput (value hh) (value mm) (value ss) us ∧
            TsRange (instant day ⟨value hh, value mm, value ss, us⟩) then
          Timestamp.tryFromStr p u cs text (-1) order = .ok ⟨instant day ⟨value hh, value mm, value ss, us⟩⟩
        else (Timestamp.tryFromStr p u cs text (-1) order).IsErr := by
  have e : f.getD [] = fracDigits f := by cases f <;> rfl
  rw [e] at hf hs ⊢
  refine ⟨fracMicros f, fracMicros_nearest hf hs.2.2.2, ?_⟩
  have hl : text.length ≤ 128 := by
    have h5 := hs.2.2.2
    rw [ht]
    cases f <;> cases bc <;> simp [numericDate, bcMark, fracDigits, hmsText] at h5 ⊢ <;> omega
  obtain ⟨sep, hsep⟩ : ∃ sep : DateSep, sep.bytes = [y] := by
    rcases hy with rfl | rfl
    · exact ⟨.space, rfl⟩
    · exact ⟨.letterT, rfl⟩
  have h := timestamp_numeric p u hcs order bc sep hx ha (by rintro rfl; simp at la) hb (by rintro rfl; simp at lb)
    hc (by rintro rfl; simp at lc) la.2 lb.2 lc.2 (fun _ => h3) h1 n1 h2 n2 h4 n4 hf (text := text)
    (by rw [ht, hsep, hmsText_eq]) hl
  cases hd : inputDay order a b c bc with
  | none => rw [hd] at h; exact h
  | some day =>
    rw [hd] at h
    simp only at h ⊢
    by_cases hci : ClockInput (value hh) (value mm) (value ss) (fracMicros f) ∧
        TsRange (instant day ⟨value hh, value mm, value ss, fracMicros f⟩)
    · rw [if_pos hci]
      rw [if_pos ⟨⟨hs, hci.1⟩, hci.2⟩] at h
      exact h
    · rw [if_neg hci]
      rw [if_neg (fun q => hci ⟨q.1.2, q.2⟩)] at h
      exact h

example : Timestamp.tryFromStr .debug .date Caches.new b!"2024-03-01T23:59:60.5" (-1) .ymd =
    .ok ⟨762652800500000⟩ ∧ instant ⟨2024, 3, 1⟩ ⟨23, 59, 60, 500000⟩ = 762652800500000 ∧
    ClockInput 23 59 60 500000 := by decide +kernel
example : (Timestamp.tryFromStr .debug .date Caches.new b!"2024-03-01 24:00:01" (-1) .ymd).IsErr :=
  ⟨.overflow, by decide +kernel⟩

end Props
