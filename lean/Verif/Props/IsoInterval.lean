import Verif.Lemmas.IsoText
import Verif.Props.Fractions

/-!
# Property C73: ISO 8601 intervals

`P1Y2M3W4DT5H6M7.5S`, `P0001-02-03T04:05:06`, `P00010203T040506`. `c` is the state of the thread's keyword caches, `u` the
uninitialised type of a lone sign.
-/

namespace Props
open Pg Spec

theorem digits_pos {n k : Nat} {ds : Bytes} (h : DigitsOf n k ds) (hn : 1 ≤ n) : 1 ≤ ds.length := by
  have := h.2.1
  omega

theorem items_length (l : List IsoItem) : l.length ≤ ((l.map IsoItem.text).flatten).length := by
  induction l with
  | nil => simp
  | cons x l ih => simp only [List.map_cons, List.flatten_cons, List.length_append, List.length_cons, IsoItem.text]; omega

theorem iso_length {d : IsoDatePart} (h : d.Ok) : d.list.length ≤ d.text.length := by
  cases d with
  | items l => exact items_length l
  | dashed y r =>
    have hy := digits_pos (h.1 ⟨y, [], .year⟩ (by rcases r with - | ⟨m, - | d⟩ <;> simp [IsoDatePart.list])).1 (le_refl 1)
    simp only at hy
    rcases r with - | ⟨m, - | d⟩ <;>
      simp only [IsoDatePart.list, IsoDatePart.text, List.length_append, List.length_cons, List.length_nil] <;> omega
  | packed y m d =>
    have h1 := digits_pos h.1 (by omega)
    have h2 := digits_pos h.2.1 (by omega)
    have h3 := digits_pos h.2.2 (by omega)
    simp only [IsoDatePart.list, IsoDatePart.text, List.length_append, List.length_cons, List.length_nil]
    omega

theorem isoTime_length {d : IsoTimePart} (h : d.Ok) : d.list.length ≤ d.text.length := by
  cases d with
  | items l => exact items_length l
  | coloned y r =>
    have hy := digits_pos (h.1 ⟨y, [], .hour⟩ (by rcases r with - | ⟨m, - | d⟩ <;> simp [IsoTimePart.list])).1 (le_refl 1)
    simp only at hy
    rcases r with - | ⟨m, - | d⟩ <;>
      simp only [IsoTimePart.list, IsoTimePart.text, List.length_append, List.length_cons, List.length_nil] <;> omega
  | packed y m d =>
    have h1 := digits_pos h.1 (by omega)
    have h2 := digits_pos h.2.1 (by omega)
    have h3 := digits_pos h.2.2.1 (by omega)
    simp only [IsoTimePart.list, IsoTimePart.text, List.length_append, List.length_cons, List.length_nil, IsoItem.number]
    split <;> simp only [List.length_append, List.length_cons, List.append_nil, List.length_nil] <;> omega

/-- **C73.** ISO 8601 intervals in each of the three ways of writing the date part and the time part are read as the sum of
what their numbers stand for (`IsoQuantityIs`); letters may be repeated and come in any order within their part. -/
theorem C73_iso (p : Profile) (u : TokenField) (c : Caches) (hc : c.Ok) (style : IntervalStyle)
    (d : IsoDatePart) (hd : d.Ok) (t : Option IsoTimePart) (ht : ∀ x ∈ t, x.Ok ∧ x.list ≠ [])
    (hne : isoList d t ≠ []) (hmod : Modest (isoList d t)) (hl : (isoText d t).length ≤ 128) :
    ∃ ys, List.Forall₂ IsoQuantityIs (isoList d t) ys ∧ Interval.tryFromStr p u c (isoText d t) (-1) style =
      .ok ⟨(sumParts ys).1, (sumParts ys).2.1, (sumParts ys).2.2⟩ := by
  obtain ⟨X, hX⟩ : ∃ X, X = d.text ++ isoTail t := ⟨_, rfl⟩
  have eX : isoText d t = 80 :: X := by rw [hX]; rfl
  rw [eX] at hl ⊢
  have hxw : ∀ b ∈ X, isWordB b = true := by
    rw [hX]
    cases t with
    | none => rw [isoTail, List.append_nil]; exact isoDate_word hd
    | some x => exact sep_word (isoDate_word hd) rfl (isoTime_word (ht x rfl).1)
  have hxf : (∃ c t, X = c :: t ∧ (isDigit c = true ∨ c = 45)) ∨ ∃ c t, X = 84 :: c :: t ∧ (isDigit c = true ∨ c = 45) := by
    by_cases hdl : d.list = []
    · have hd0 : d.text = [] := by
        cases d with
        | items l => simp only [IsoDatePart.list] at hdl; subst hdl; rfl
        | dashed y r => rcases r with - | ⟨m, - | d⟩ <;> simp [IsoDatePart.list] at hdl
        | packed y m d => simp [IsoDatePart.list] at hdl
      cases t with
      | none => exact absurd (by simp [isoList, isoTailList, hdl]) hne
      | some x =>
        obtain ⟨h1, h2⟩ := ht x rfl
        obtain ⟨c, r, e, hc⟩ := isoTime_first h1 h2
        exact Or.inr ⟨c, r, by rw [hX, hd0]; simp only [List.nil_append, isoTail]; rw [e], Or.inl hc⟩
    · obtain ⟨c, r, e, hc⟩ := isoDate_first hd hdl (isoTail t)
      exact Or.inl ⟨c, r, by rw [hX, e], Or.inl hc⟩
  obtain ⟨y, r, hy, hs⟩ := iso_scan u hl hxf hxw
  have hxne : X ≠ [] := by
    rcases hxf with ⟨c, r, e, -⟩ | ⟨c, r, e, -⟩ <;> rw [e] <;> simp
  have hfit : Fits (d.list ++ isoTailList t) := by
    refine ⟨hmod, ?_⟩
    have h1 := iso_length hd
    simp only [List.length_cons, hX, List.length_append] at hl
    cases t with
    | none => simp only [isoTail, isoTailList, List.length_append, List.length_nil] at hl ⊢; omega
    | some x =>
      have h2 := isoTime_length (ht x rfl).1
      simp only [isoTail, isoTailList, List.length_append, List.length_cons] at hl ⊢
      omega
  have key : ∃ i : IsoS, isoLoop p ((80 :: X).length + 1) X { t := ({}, 0) } = (.ok (), i) ∧
      IAt i.t (d.list ++ isoTailList t) := by
    obtain ⟨t1, hi, hr⟩ := isoDate_run (p := p) hd (Fits.init hfit)
    cases t with
    | none =>
      have e : (80 :: X).length + 1 = 0 + d.text.length + 2 := by rw [hX]; simp [isoTail]
      rw [e, hX]
      simp only [isoTail, isoTailList, List.append_nil]
      have := hr 0 [] (Or.inl rfl)
      rw [List.append_nil] at this
      rcases this with ⟨-, h2, h3⟩ | ⟨h, -⟩
      · exact ⟨_, Prod.ext h2 rfl, by rw [h3]; exact hi⟩
      · exact absurd rfl h
    | some x =>
      have e : (80 :: X).length + 1 = (x.text.length + 1) + d.text.length + 2 := by
        rw [hX]; simp only [isoTail, List.length_cons, List.length_append]; omega
      rw [e, hX]
      simp only [isoTail]
      rcases hr (x.text.length + 1) (84 :: x.text) (Or.inr ⟨_, rfl⟩) with ⟨h, -⟩ | ⟨-, k', hk, h⟩
      · cases h
      · rw [h]
        obtain ⟨t2, hi2, hr2⟩ := isoTime_run (p := p) (ht x rfl).1 hi hfit
        obtain ⟨s, h1, h2⟩ := hr2 k' (by omega)
        exact ⟨s, h1, by rw [h2]; exact hi2⟩
  obtain ⟨i, hloop, ys, hall, W, S, hinv, hWS⟩ := key
  refine ⟨ys, hall, ?_⟩
  rw [iso_interval_run hc hy hs hxne hloop, Res.bind_ok]
  obtain ⟨⟨m1, m2, m3, m4, -⟩, hlen⟩ := hfit
  rw [List.map_map] at m1 m2 m3 m4
  simp only [Function.comp_def] at m1 m2 m3 m4
  rw [fromPgtime_totals hinv (by omega) (by omega) (by omega), hWS]

/-- Behind items of the date part, or of the time part, a minus sign is an error, and so is a number with a letter that does
not belong to the part. -/
theorem C73_rejected (p : Profile) (u : TokenField) (c : Caches) (hc : c.Ok) (style : IntervalStyle)
    (l : List IsoItem) (hl : ∀ x ∈ l, x.Ok ∧ x.unit ∈ isoDateUnits) (bad : Bytes)
    (hb : BadItem [89, 77, 87, 68, 84, 45] bad) (hw : ∀ b ∈ bad, isWordB b = true) (hmod : Modest (l.map IsoItem.quantity))
    (hlen : (80 :: ((l.map IsoItem.text).flatten ++ bad)).length ≤ 128) :
    Interval.tryFromStr p u c (80 :: ((l.map IsoItem.text).flatten ++ bad)) (-1) style = .err .invalid := by
  have hf : ∃ c t, bad = c :: t ∧ (isDigit c = true ∨ c = 45) := by
    cases hb with
    | minus r => exact ⟨45, r, rfl, Or.inr rfl⟩
    | letter ds c r hd hv hc h46 h0 hl =>
      obtain ⟨y, t, e, hy⟩ := digits_first' hd (by omega) (c :: r)
      exact ⟨y, t, e, Or.inl hy⟩
  have hX : ∃ c t, (l.map IsoItem.text).flatten ++ bad = c :: t ∧ (isDigit c = true ∨ c = 45) := by
    by_cases h : l = []
    · subst h; exact hf
    · obtain ⟨c, t, e, hc⟩ := items_first (fun x hx => (hl x hx).1) h bad
      exact ⟨c, t, e, Or.inl hc⟩
  obtain ⟨y, r, hy, hs⟩ := iso_scan u hlen (Or.inl hX) (join_word (items_word fun x hx => (hl x hx).1) hw)
  have hfit : Fits ([] ++ l) := by
    refine ⟨hmod, ?_⟩
    have := iso_length (d := .items l) hl
    simp only [IsoDatePart.list, IsoDatePart.text] at this
    simp only [List.length_cons, List.length_append] at hlen
    rw [List.nil_append]
    omega
  obtain ⟨st', g, -, hdp⟩ := items_go (p := p) (xs := []) (st := { t := ({}, 0) }) hl IAt.start hfit
  obtain ⟨f, hf', hg⟩ := g bad ((80 :: ((l.map IsoItem.text).flatten ++ bad)).length + 1)
    (by simp only [List.length_cons, List.length_append]; omega)
  obtain ⟨s, he⟩ := bad_fails (p := p) (b := true) hb (st := st') hdp (k := f) (by
    simp only [List.length_cons, List.length_append] at hf'; omega)
  rw [iso_interval_run hc hy hs (by obtain ⟨c, t, e, -⟩ := hX; rw [e]; simp) (o := .err .invalid) (i := s) (by rw [hg]; exact he)]
  rfl

/-- The same behind the `T`. -/
theorem C73_rejected_time (p : Profile) (u : TokenField) (c : Caches) (hc : c.Ok) (style : IntervalStyle)
    (d : IsoDatePart) (hd : d.Ok)
    (l : List IsoItem) (hl : ∀ x ∈ l, x.Ok ∧ x.unit ∈ isoTimeUnits) (bad : Bytes)
    (hb : BadItem [72, 77, 83, 58] bad) (hw : ∀ b ∈ bad, isWordB b = true)
    (hmod : Modest ((d.list ++ l).map IsoItem.quantity))
    (hlen : (80 :: (d.text ++ 84 :: ((l.map IsoItem.text).flatten ++ bad))).length ≤ 128) :
    Interval.tryFromStr p u c (80 :: (d.text ++ 84 :: ((l.map IsoItem.text).flatten ++ bad))) (-1) style = .err .invalid := by
  have hf : ∃ c t, bad = c :: t ∧ (isDigit c = true ∨ c = 45) := by
    cases hb with
    | minus r => exact ⟨45, r, rfl, Or.inr rfl⟩
    | letter ds c r hd hv hc h46 h0 hl =>
      obtain ⟨y, t, e, hy⟩ := digits_first' hd (by omega) (c :: r)
      exact ⟨y, t, e, Or.inl hy⟩
  have hL : ∃ c t, (l.map IsoItem.text).flatten ++ bad = c :: t ∧ (isDigit c = true ∨ c = 45) := by
    by_cases h : l = []
    · subst h; exact hf
    · obtain ⟨c, t, e, hc⟩ := items_first (fun x hx => (hl x hx).1) h bad
      exact ⟨c, t, e, Or.inl hc⟩
  obtain ⟨R, hR⟩ : ∃ R, R = (l.map IsoItem.text).flatten ++ bad := ⟨_, rfl⟩
  have hX : (∃ c t, d.text ++ 84 :: R = c :: t ∧ (isDigit c = true ∨ c = 45)) ∨
      ∃ c t, d.text ++ 84 :: R = 84 :: c :: t ∧ (isDigit c = true ∨ c = 45) := by
    by_cases hdl : d.list = []
    · have hd0 : d.text = [] := by
        cases d with
        | items l => simp only [IsoDatePart.list] at hdl; subst hdl; rfl
        | dashed y r => rcases r with - | ⟨m, - | d⟩ <;> simp [IsoDatePart.list] at hdl
        | packed y m d => simp [IsoDatePart.list] at hdl
      obtain ⟨c, t, e, hc⟩ := hL
      exact Or.inr ⟨c, t, by rw [hd0, hR, e]; rfl, hc⟩
    · obtain ⟨c, r, e, hc⟩ := isoDate_first hd hdl (84 :: R)
      exact Or.inl ⟨c, r, e, Or.inl hc⟩
  rw [← hR] at hlen ⊢
  obtain ⟨y, r, hy, hs⟩ := iso_scan u hlen hX (sep_word (isoDate_word hd) rfl (by
    rw [hR]; exact join_word (items_word fun x hx => (hl x hx).1) hw))
  have hfit : Fits (d.list ++ l) := by
    refine ⟨hmod, ?_⟩
    have h1 := iso_length hd
    have h2 := isoTime_length (d := .items l) hl
    simp only [IsoTimePart.list, IsoTimePart.text] at h2
    simp only [hR, List.length_cons, List.length_append] at hlen
    rw [List.length_append]
    omega
  obtain ⟨t1, hi, hr⟩ := isoDate_run (p := p) hd (Fits.init hfit)
  obtain ⟨st', g, -, hdp⟩ := items_go (p := p) (xs := d.list) (st := ⟨t1, false, false⟩) hl hi hfit
  have e : (80 :: (d.text ++ 84 :: R)).length + 1 = (R.length + 1) + d.text.length + 2 := by
    simp only [List.length_cons, List.length_append]; omega
  rcases hr (R.length + 1) (84 :: R) (Or.inr ⟨_, rfl⟩) with ⟨h, -⟩ | ⟨-, k', hk, h⟩
  · cases h
  simp only [List.drop_succ_cons, List.drop_zero] at h
  have hRl : ((l.map IsoItem.text).flatten).length ≤ R.length := by rw [hR, List.length_append]; omega
  obtain ⟨f, hf', hg⟩ := g bad k' (by omega)
  rw [← hR] at hg
  obtain ⟨s, he⟩ := bad_fails (p := p) (b := false) hb (st := st') hdp (k := f) (by omega)
  rw [iso_interval_run hc hy hs (by simp) (o := .err .invalid) (i := s) (by rw [e, h, hg]; exact he)]
  rfl

/-- An example: a year, three weeks twice, four and a half days; five hours and 6.0000016 seconds. -/
def sampleIso : IsoDatePart :=
  .items [⟨b!"1", [], .year⟩, ⟨b!"3", [], .week⟩, ⟨b!"4", b!"5", .day⟩, ⟨b!"3", [], .week⟩]
def sampleIsoTime : IsoTimePart := .items [⟨b!"6", b!"0000016", .second⟩, ⟨b!"5", [], .hour⟩]

example : isoText sampleIso (some sampleIsoTime) = b!"P1Y3W4.5D3WT6.0000016S5H" ∧
    sampleIso.Ok ∧ sampleIsoTime.Ok ∧ sampleIsoTime.list ≠ [] ∧
    Interval.tryFromStr .debug .date Caches.new (isoText sampleIso (some sampleIsoTime)) (-1) .postgres =
      .ok ⟨12, 46, 43200000000 + 6000002 + 18000000000⟩ := by decide +kernel
example : Modest (isoList sampleIso (some sampleIsoTime)) := by unfold Modest; decide +kernel
example : isoText (.dashed b!"0001" (some (b!"02", some b!"03"))) (some (.coloned b!"04" (some (b!"05", some (b!"06", b!"7"))))) =
    b!"P0001-02-03T04:05:06.7" ∧ isoText (.packed b!"0001" b!"02" b!"03") (some (.packed b!"04" b!"05" b!"06" b!"7")) =
      b!"P00010203T040506.7" := by decide
example : Interval.tryFromStr .debug .date Caches.new b!"P0001-02-03T04:05:06.7" (-1) .postgres = .ok ⟨14, 3, 14706700000⟩ ∧
    Interval.tryFromStr .debug .date Caches.new b!"P00010203T040506.7" (-1) .postgres = .ok ⟨14, 3, 14706700000⟩ ∧
    Interval.tryFromStr .debug .date Caches.new b!"P1DT-2H" (-1) .postgres = .err .invalid ∧
    Interval.tryFromStr .debug .date Caches.new b!"P1H" (-1) .postgres = .err .invalid := by decide +kernel

/-- Fractions of years, weeks and months. -/
def sampleIsoFractions : IsoDatePart := .items [⟨b!"7", b!"25", .year⟩, ⟨b!"2", b!"5", .week⟩, ⟨b!"4", b!"1", .month⟩]

example : isoText sampleIsoFractions none = b!"P7.25Y2.5W4.1M" ∧ sampleIsoFractions.Ok ∧
    Interval.tryFromStr .debug .date Caches.new (isoText sampleIsoFractions none) (-1) .postgres =
      .ok ⟨7 * 12 + 3 + 4, 17 + 2, 43200000000 + 86400000000⟩ := by decide +kernel
example : Modest (isoList sampleIsoFractions none) := by unfold Modest; decide +kernel

/-- Fractions of months are not read like the same number of months written in words: `P4.1M` has 2 days and 24 hours,
`4.1 mons` has 3 days. -/
theorem C73_months_unlike_words :
    Interval.tryFromStr .release .date Caches.new b!"P4.1M" (-1) .postgres = .ok ⟨4, 2, 86400000000⟩ ∧
    Interval.tryFromStr .release .date Caches.new b!"4.1 mons" (-1) .postgres = .ok ⟨4, 3, 0⟩ := by
  decide +kernel

end Props
