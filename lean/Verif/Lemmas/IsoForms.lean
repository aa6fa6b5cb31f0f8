import Verif.Lemmas.IsoRun

/-! # The two parts of ISO 8601 intervals -/

namespace Pg
open Spec F64

variable {p : Profile}

/-- The end of the date part. -/
def dEnd (e : Bytes) (st : IsoS) : Res IsoStep × IsoS :=
  if e = [] then (.ok .done, st) else (.ok (.again e), { st with datePart := false, haveField := false })

/-- Nothing or the `T` follows. -/
def AtEnd (e : Bytes) : Prop := e = [] ∨ ∃ r, e = 84 :: r

theorem AtEnd.stops {e : Bytes} (h : AtEnd e) : Stops isDigit e ∧ e.head? ≠ some 46 := by
  rcases h with rfl | ⟨r, rfl⟩
  · exact ⟨Stops.nil _, by simp⟩
  · exact ⟨Stops.cons rfl, by simp⟩

theorem isoDatePart3_run {s e : Bytes} {v : Int} {fv : F64} {st : IsoS} {t' : TmF}
    (hp : parseIsoNumber s = .ok (v, fv, e)) (ha : isoAdd p .day v fv st.t = (.ok (), t')) (he : AtEnd e) :
    isoDatePart3 p s st = dEnd e { st with t := t' } := by
  unfold isoDatePart3
  rw [hp, St.lift_ok_bind]
  simp only
  rw [onTmIso_two]
  refine Eq.trans (St.bind_ok (onTmIso_run ha)) ?_
  rcases he with rfl | ⟨r, rfl⟩
  · rfl
  · rfl

theorem isoDatePart2_run {s e : Bytes} {v : Int} {fv : F64} {st : IsoS} {t' : TmF}
    (hp : parseIsoNumber s = .ok (v, fv, e)) (ha : isoAdd p .month v fv st.t = (.ok (), t')) (he : AtEnd e) :
    isoDatePart2 p s st = dEnd e { st with t := t' } := by
  unfold isoDatePart2
  rw [hp, St.lift_ok_bind]
  simp only
  rw [onTmIso_two]
  refine Eq.trans (St.bind_ok (onTmIso_run ha)) ?_
  rcases he with rfl | ⟨r, rfl⟩
  · rfl
  · rfl

theorem isoDatePart2_more {s r : Bytes} {v : Int} {fv : F64} {st : IsoS} {t' : TmF}
    (hp : parseIsoNumber s = .ok (v, fv, 45 :: r)) (ha : isoAdd p .month v fv st.t = (.ok (), t')) :
    isoDatePart2 p s st = isoDatePart3 p r { st with t := t' } := by
  unfold isoDatePart2
  rw [hp, St.lift_ok_bind]
  simp only
  rw [onTmIso_two]
  refine Eq.trans (St.bind_ok (onTmIso_run ha)) ?_
  rfl

theorem isoDateLeft_run {s : Bytes} {v : Int} {fv : F64} {st : IsoS} {t' : TmF} (hf : st.haveField = false)
    (ha : isoAdd p .year v fv st.t = (.ok (), t')) :
    isoDateLeft p s 0 v fv st = (.ok .done, { st with t := t' }) ∧
    isoDateLeft p s 84 v fv st = (.ok (.again s), { st with t := t', datePart := false, haveField := false }) ∧
    isoDateLeft p s 45 v fv st = isoDatePart2 p s { st with t := t' } := by
  refine ⟨?_, ?_, ?_⟩
  all_goals
    unfold isoDateLeft
    rw [St.get_bind, if_neg (by simp [hf]), onTmIso_two]
    refine Eq.trans (St.bind_ok (onTmIso_run ha)) ?_
    rfl

/-- What the loop does after a number. -/
def goOn (p : Profile) (k : Nat) : Res IsoStep × IsoS → Res Unit × IsoS
  | (.ok .done, s) => (.ok (), s)
  | (.ok (.again r), s) => isoLoop p k r s
  | (.ok (.field r), s) => isoLoop p k r { s with haveField := true }
  | (.err e, s) => (.err e, s)
  | (.panic, s) => (.panic, s)

/-- One turn of the loop for a number. -/
theorem isoLoop_number {x e : Bytes} {v : Int} {fv : F64} {st : IsoS} {k : Nat} (h1 : ∃ y t, x = y :: t ∧ isDigit y = true)
    (hp : parseIsoNumber (x ++ e) = .ok (v, fv, e)) {o : Res IsoStep × IsoS}
    (hn : isoNumber p (x ++ e) (isoUnit e).2 (isoUnit e).1 v fv st = o) :
    isoLoop p (k + 1) (x ++ e) st = goOn p k o := by
  obtain ⟨y, t, rfl, hy⟩ := h1
  rw [List.cons_append] at hp hn ⊢
  rw [isoLoop]
  simp only
  rw [if_neg (by rw [isDigit_iff] at hy; omega), hp, St.lift_ok_bind]
  simp only
  rw [St.bind_run, hn]
  rcases o with ⟨r, s⟩
  cases r with
  | ok a => cases a <;> rfl
  | err e => rfl
  | panic => rfl

/-- The end of the date part in the loop. -/
theorem isoLoop_end {e : Bytes} {st : IsoS} (k : Nat) (he : AtEnd e) :
    goOn p (k + 1) (dEnd e st) =
    if e = [] then (.ok (), st) else isoLoop p k (e.drop 1) { st with datePart := false, haveField := false } := by
  rcases he with rfl | ⟨r, rfl⟩
  · rfl
  · rfl

/-- What is left to do after the date. -/
def dateRest (p : Profile) (k : Nat) (e : Bytes) (t : TmF) (s : Res Unit × IsoS) : Prop :=
  (e = [] ∧ s.1 = .ok () ∧ s.2.t = t) ∨ (e ≠ [] ∧ ∃ k', k ≤ k' ∧ s = isoLoop p k' (e.drop 1) ⟨t, false, false⟩)

theorem dateRest_end {e : Bytes} {st : IsoS} (k : Nat) {s : Res Unit × IsoS}
    (h : s = if e = [] then (.ok (), st) else isoLoop p k (e.drop 1) { st with datePart := false, haveField := false }) :
    dateRest p k e st.t s := by
  by_cases he : e = []
  · rw [if_pos he] at h
    subst h
    exact Or.inl ⟨he, rfl, rfl⟩
  · rw [if_neg he] at h
    exact Or.inr ⟨he, k, le_refl _, h⟩

theorem whole_frac {ds : Bytes} {u : IvUnit} : IsoFrac u (IsoItem.mk ds [] u).quantity.tenMillionths 0 :=
  Or.inl ⟨by simp [FracQuantity.tenMillionths, IsoItem.quantity, value], rfl⟩

/-- A number without fraction is added. -/
theorem whole_add {ds : Bytes} {u : IvUnit} (h : (IsoItem.mk ds [] u).Ok) (hu : u ∈ isoDateUnits ∨ u ∈ isoTimeUnits) {t : TmF}
    {xs : List IsoItem} (hi : IAt t xs) (hfit : Fits (xs ++ [⟨ds, [], u⟩])) :
    ∃ t', isoAdd p u (value ds) (.fin 0) t = (.ok (), t') ∧ IAt t' (xs ++ [⟨ds, [], u⟩]) :=
  isoAdd_item (x := ⟨ds, [], u⟩) h hu whole_frac hi hfit

theorem isoWidth_digits {ds r : Bytes} (hd : Digits ds) (ne : ds ≠ []) (hr : Stops isDigit r) : isoWidth (ds ++ r) = ds.length := by
  obtain ⟨x, t, e, -, -, -, h45⟩ := digit_head (r := r) hd ne
  unfold isoWidth
  split
  · rename_i r' h
    rw [e] at h
    cases h
    exact absurd rfl h45
  · rw [takeWhile_span (digits_isDigit hd) hr]

/-- Dates with dashes. -/
theorem dashed_run {y : Bytes} {r : Option (Bytes × Option Bytes)} (h : (IsoDatePart.dashed y r).Ok)
    (hfit : Fits (IsoDatePart.dashed y r).list) : ∃ t', IAt t' (IsoDatePart.dashed y r).list ∧ ∀ k e, AtEnd e →
      dateRest p k e t' (isoLoop p (k + 2) ((IsoDatePart.dashed y r).text ++ e) { t := ({}, 0) }) := by
  obtain ⟨hall, h8⟩ := h
  have hy : (IsoItem.mk y [] .year).Ok := hall _ (by rcases r with - | ⟨m, - | d⟩ <;> simp [IsoDatePart.list])
  have fy : ∃ y' t, y = y' :: t ∧ isDigit y' = true := digits_first hy.1.1 (DigitsOf.ne hy.1 (by omega))
  have hfy : Fits ([] ++ [⟨y, [], .year⟩]) := by
    rcases r with - | ⟨m, - | d⟩
    · exact hfit
    · exact Fits.init (ys := [_]) hfit
    · exact Fits.init (ys := [_, _]) hfit
  obtain ⟨t1, a1, i1⟩ := whole_add (p := p) hy (by decide) IAt.start hfy
  rcases r with - | ⟨m, - | d⟩
  · refine ⟨t1, i1, ?_⟩
    intro k e he
    have hp := isoNum_whole hy.1 hy.2.2.1 he.stops.1 he.stops.2
    have hw := isoWidth_digits (r := e) hy.1.1 (DigitsOf.ne hy.1 (by omega)) he.stops.1
    have h8 := h8 rfl
    simp only [IsoDatePart.text]
    obtain ⟨l1, l2, -⟩ := isoDateLeft_run (p := p) (s := (isoUnit e).2) (st := { t := ({}, 0) }) rfl a1
    rcases he with rfl | ⟨r, rfl⟩
    · rw [isoLoop_number fy hp (o := (.ok .done, { t := t1 })) (by
        unfold isoNumber
        rw [St.get_bind]
        simp (config := { decide := true }) only [isoUnit, isoDate, if_true, if_false, St.get_bind]
        rw [if_neg (by rw [hw]; simp [h8])]
        exact l1)]
      exact Or.inl ⟨rfl, rfl, rfl⟩
    · rw [isoLoop_number fy hp (o := (.ok (.again r), ⟨t1, false, false⟩)) (by
        unfold isoNumber
        rw [St.get_bind]
        simp (config := { decide := true }) only [isoUnit, isoDate, if_true, if_false, true_or, St.get_bind]
        rw [if_neg (by rw [hw]; simp [h8])]
        exact l2)]
      exact Or.inr ⟨by simp, k + 1, by omega, rfl⟩
  · have hm : (IsoItem.mk m [] .month).Ok := hall _ (by simp [IsoDatePart.list])
    obtain ⟨t2, a2, i2⟩ := whole_add (p := p) hm (by decide) i1 hfit
    refine ⟨t2, i2, ?_⟩
    intro k e he
    have hp := isoNum_whole (rest := 45 :: (m ++ e)) hy.1 hy.2.2.1 (Stops.cons rfl) (by simp)
    have hp2 := isoNum_whole hm.1 hm.2.2.1 he.stops.1 he.stops.2
    simp only [IsoDatePart.text, List.append_assoc, List.cons_append]
    obtain ⟨-, -, l3⟩ := isoDateLeft_run (p := p) (s := m ++ e) (st := { t := ({}, 0) }) rfl a1
    rw [isoLoop_number fy hp (o := dEnd e { t := t2 }) (by
      unfold isoNumber
      rw [St.get_bind]
      simp (config := { decide := true }) only [isoUnit, isoDate, if_true, if_false]
      rw [l3]
      exact isoDatePart2_run hp2 a2 he), isoLoop_end k he]
    exact dateRest_end k rfl
  · have hm : (IsoItem.mk m [] .month).Ok := hall _ (by simp [IsoDatePart.list])
    have hd : (IsoItem.mk d [] .day).Ok := hall _ (by simp [IsoDatePart.list])
    obtain ⟨t2, a2, i2⟩ := whole_add (p := p) hm (by decide) i1 (Fits.init (ys := [_]) hfit)
    obtain ⟨t3, a3, i3⟩ := whole_add (p := p) hd (by decide) i2 hfit
    refine ⟨t3, i3, ?_⟩
    intro k e he
    have hp := isoNum_whole (rest := 45 :: (m ++ 45 :: (d ++ e))) hy.1 hy.2.2.1 (Stops.cons rfl) (by simp)
    have hp2 := isoNum_whole (rest := 45 :: (d ++ e)) hm.1 hm.2.2.1 (Stops.cons rfl) (by simp)
    have hp3 := isoNum_whole hd.1 hd.2.2.1 he.stops.1 he.stops.2
    simp only [IsoDatePart.text, List.append_assoc, List.cons_append]
    obtain ⟨-, -, l3⟩ := isoDateLeft_run (p := p) (s := m ++ 45 :: (d ++ e)) (st := { t := ({}, 0) }) rfl a1
    rw [isoLoop_number fy hp (o := dEnd e { t := t3 }) (by
      unfold isoNumber
      rw [St.get_bind]
      simp (config := { decide := true }) only [isoUnit, isoDate, if_true, if_false]
      rw [l3, isoDatePart2_more hp2 a2]
      exact isoDatePart3_run hp3 a3 he), isoLoop_end k he]
    exact dateRest_end k rfl

theorem addYear_of {v : Int} {t t' : TmF} (hm : In32 t.1.mon) (h : isoAdd p .year v (.fin 0) t = (.ok (), t')) :
    addYear p v t = (.ok (), t') := by
  simp only [isoAdd] at h
  have e : ∀ t1 : TmF, In32 t1.1.mon → addYearFrac p (.fin 0) t1 = (.ok (), t1) := by
    intro t1 h1
    simp only [addYearFrac, addMon, zero_year, St.bind_run, St.get_run, St.lift_run, St.mod_run, Int.add_zero, chk32_ok h1]
  rw [St.bind_run] at h
  have e2 : ∀ r t1, addYear p v t = (r, t1) → t1.1.mon = t.1.mon := by
    intro r t1 h1
    simp only [addYear, St.bind_run, St.get_run, St.lift_run] at h1
    cases hc : chk32 p (t.1.year + v) with
    | ok a => rw [hc] at h1; simp only [St.mod_run] at h1; cases h1; rfl
    | err a => rw [hc] at h1; cases h1; rfl
    | panic => rw [hc] at h1; cases h1; rfl
  rcases hr : addYear p v t with ⟨r, t1⟩
  rw [hr] at h
  cases r with
  | ok a =>
    simp only at h
    rw [e t1 (by rw [e2 _ _ hr]; exact hm)] at h
    cases h
    rfl
  | err a => cases h
  | panic => cases h

theorem zero_days {sc : Int} (t : TmF) : adjustFractDays p (.fin 0) sc t = (.ok (), t) := by
  unfold adjustFractDays; rw [if_pos rfl]; rfl
theorem zero_secs {sc : Int} (t : TmF) : adjustFractSeconds p (.fin 0) sc t = (.ok (), t) := by
  unfold adjustFractSeconds; rw [if_pos rfl]; rfl

theorem drop_right {a b : St TmF Unit} (hb : ∀ t, b t = (.ok (), t)) {t t' : TmF} (h : (a >>= fun _ => b) t = (.ok (), t')) :
    a t = (.ok (), t') := by
  rw [St.bind_run] at h
  rcases hr : a t with ⟨r, t1⟩
  rw [hr] at h
  cases r with
  | ok u => simp only [hb] at h; cases h; rfl
  | err e => cases h
  | panic => cases h

theorem whole_ok {ds : Bytes} {u : IvUnit} (h1 : 1 ≤ ds.length) (h2 : ds.length ≤ 10) (hd : Digits ds)
    (hv : value ds ≤ 2147483647) : (IsoItem.mk ds [] u).Ok :=
  ⟨⟨hd, h1, h2⟩, (show DigitsOf 0 7 [] by decide), hv, fun h => absurd rfl h⟩

theorem value_join (a : Bytes) {b : Bytes} (hb : Digits b) : value (a ++ b) = value a * 10 ^ b.length + value b := by
  induction b using List.reverseRecOn with
  | nil => simp [value]
  | append_singleton b d ih =>
    have ih := ih (digits_append.1 hb).1
    rw [← List.append_assoc, value_append, value_append, ih, List.length_append, List.length_singleton, pow_succ]
    ring

/-- Dates of eight digits. -/
theorem packed_run {y m d : Bytes} (h : (IsoDatePart.packed y m d).Ok) : ∃ t', IAt t' (IsoDatePart.packed y m d).list ∧ ∀ k e,
    AtEnd e → dateRest p k e t' (isoLoop p (k + 2) ((IsoDatePart.packed y m d).text ++ e) { t := ({}, 0) }) := by
  obtain ⟨hy, hm, hd⟩ := h
  have vy := value_lt hy.1
  have vm := value_lt hm.1
  have vd := value_lt hd.1
  have ly : y.length = 4 := by have := hy.2; omega
  have lm : m.length = 2 := by have := hm.2; omega
  have ld : d.length = 2 := by have := hd.2; omega
  rw [ly] at vy; rw [lm] at vm; rw [ld] at vd
  norm_num at vy vm vd
  have oy : (IsoItem.mk y [] .year).Ok := whole_ok (by omega) (by omega) hy.1 (by omega)
  have om : (IsoItem.mk m [] .month).Ok := whole_ok (by omega) (by omega) hm.1 (by omega)
  have od : (IsoItem.mk d [] .day).Ok := whole_ok (by omega) (by omega) hd.1 (by omega)
  have hfit : Fits (IsoDatePart.packed y m d).list := by
    unfold Fits Modest
    simp only [IsoDatePart.list, List.map_cons, List.map_nil, size_cons, IsoItem.quantity, IvUnit.months, IvUnit.days,
      wholeMinutes, subMinute, show ∀ f, size f [] = 0 from fun _ => rfl, List.length_cons, List.length_nil]
    refine ⟨⟨by omega, by omega, by omega, by omega, ?_⟩, by omega⟩
    intro x hx
    simp only [List.mem_cons, List.not_mem_nil, or_false] at hx
    rcases hx with rfl | rfl | rfl <;> simp only <;> omega
  obtain ⟨t1, a1, i1⟩ := whole_add (p := p) oy (by decide) IAt.start (Fits.init (ys := [_, _]) hfit)
  obtain ⟨t2, a2, i2⟩ := whole_add (p := p) om (by decide) i1 (Fits.init (ys := [_]) hfit)
  obtain ⟨t3, a3, i3⟩ := whole_add (p := p) od (by decide) i2 hfit
  refine ⟨t3, i3, ?_⟩
  intro k e he
  have hD : DigitsOf 1 10 (y ++ (m ++ d)) := ⟨digits_append.2 ⟨hy.1, digits_append.2 ⟨hm.1, hd.1⟩⟩, by
    simp only [List.length_append]; omega, by simp only [List.length_append]; omega⟩
  have hval : value (y ++ (m ++ d)) = value y * 10000 + value m * 100 + value d := by
    rw [value_join _ (digits_append.2 ⟨hm.1, hd.1⟩), value_join _ hd.1]
    simp only [List.length_append, lm, ld]
    ring
  have hp := isoNum_whole hD (by rw [hval]; omega) he.stops.1 he.stops.2
  have fy : ∃ y' t, y ++ (m ++ d) = y' :: t ∧ isDigit y' = true := digits_first hD.1 (DigitsOf.ne hD (by omega))
  have hw : isoWidth (y ++ (m ++ d) ++ e) = 8 := by
    rw [isoWidth_digits hD.1 (DigitsOf.ne hD (by omega)) he.stops.1]
    simp only [List.length_append]; omega
  have b1 := addYear_of (by decide) a1
  have b2 : addMon p (value m) t1 = (.ok (), t2) := drop_right zero_days a2
  have b3 : addMday p (value d) t2 = (.ok (), t3) := drop_right zero_secs a3
  have q1 : Int.tdiv (value (y ++ (m ++ d)) : Int) 10000 = value y := by
    have := tdiv_or (value (y ++ (m ++ d)) : Int) 10000; omega
  have q2 : Int.tmod (Int.tdiv (value (y ++ (m ++ d)) : Int) 100) 100 = value m := by
    have := tdiv_or (value (y ++ (m ++ d)) : Int) 100
    have := tmod_or (Int.tdiv (value (y ++ (m ++ d)) : Int) 100) 100; omega
  have q3 : Int.tmod (value (y ++ (m ++ d)) : Int) 100 = value d := by
    have := tmod_or (value (y ++ (m ++ d)) : Int) 100; omega
  have hn : isoNumber p (y ++ (m ++ d) ++ e) (isoUnit e).2 (isoUnit e).1 (value (y ++ (m ++ d))) (.fin 0) { t := ({}, 0) } =
      if e = [] then (.ok .done, { t := t3 }) else (.ok (.again (e.drop 1)), ⟨t3, false, false⟩) := by
    unfold isoNumber
    rw [St.get_bind]
    rcases he with rfl | ⟨r, rfl⟩
    all_goals
      simp (config := { decide := true }) only [isoUnit, isoDate, if_true, if_false, St.get_bind]
      rw [if_pos ⟨hw, trivial⟩, q1, q2, q3]
      refine Eq.trans (St.bind_ok (onTmIso_run b1)) ?_
      refine Eq.trans (St.bind_ok (onTmIso_run b2)) ?_
      refine Eq.trans (St.bind_ok (onTmIso_run b3)) ?_
      refine Eq.trans (St.bind_ok (onTmIso_run (zero_secs t3))) ?_
      rfl
  simp only [IsoDatePart.text]
  rw [isoLoop_number fy hp hn]
  by_cases hz : e = []
  · rw [if_pos hz]
    exact Or.inl ⟨hz, rfl, rfl⟩
  · rw [if_neg hz]
    exact Or.inr ⟨hz, k + 1, by omega, rfl⟩

/-- Dates in any form. -/
theorem isoDate_run {d : IsoDatePart} (h : d.Ok) (hfit : Fits d.list) : ∃ t', IAt t' d.list ∧ ∀ k e, AtEnd e →
    dateRest p k e t' (isoLoop p (k + d.text.length + 2) (d.text ++ e) { t := ({}, 0) }) := by
  cases d with
  | items l =>
    obtain ⟨st', g, hi, hd⟩ := items_go (p := p) (xs := []) (st := { t := ({}, 0) }) h IAt.start hfit
    refine ⟨st'.t, hi, ?_⟩
    intro k e he
    obtain ⟨f, hf, hg⟩ := g e (k + (IsoDatePart.items l).text.length + 2) (by simp only [IsoDatePart.text]; omega)
    simp only [IsoDatePart.text] at hf hg ⊢
    rw [hg]
    obtain ⟨f', rfl⟩ : ∃ f', f = f' + 1 := ⟨f - 1, by omega⟩
    rcases he with rfl | ⟨r, rfl⟩
    · exact Or.inl ⟨rfl, rfl, rfl⟩
    · exact Or.inr ⟨by simp, f', by omega, rfl⟩
  | dashed y r =>
    obtain ⟨t', hi, hr⟩ := dashed_run (p := p) h hfit
    refine ⟨t', hi, ?_⟩
    intro k e he
    rcases hr (k + (IsoDatePart.dashed y r).text.length) e he with h | ⟨h1, k', h2, h3⟩
    · exact Or.inl h
    · exact Or.inr ⟨h1, k', by omega, h3⟩
  | packed y m d =>
    obtain ⟨t', hi, hr⟩ := packed_run (p := p) h
    refine ⟨t', hi, ?_⟩
    intro k e he
    rcases hr (k + (IsoDatePart.packed y m d).text.length) e he with h | ⟨h1, k', h2, h3⟩
    · exact Or.inl h
    · exact Or.inr ⟨h1, k', by omega, h3⟩

theorem isoTimePart3_run {s : Bytes} {v : Int} {fv : F64} {st : IsoS} {t' : TmF}
    (hp : parseIsoNumber s = .ok (v, fv, [])) (ha : isoAdd p .second v fv st.t = (.ok (), t')) :
    isoTimePart3 p s st = (.ok .done, { st with t := t' }) := by
  unfold isoTimePart3
  rw [hp, St.lift_ok_bind]
  simp only
  rw [onTmIso_two]
  exact Eq.trans (St.bind_ok (onTmIso_run ha)) rfl

theorem isoTimePart2_run {s : Bytes} {v : Int} {fv : F64} {st : IsoS} {t' : TmF}
    (hp : parseIsoNumber s = .ok (v, fv, [])) (ha : isoAdd p .minute v fv st.t = (.ok (), t')) :
    isoTimePart2 p s st = (.ok .done, { st with t := t' }) := by
  unfold isoTimePart2
  rw [hp, St.lift_ok_bind]
  simp only
  rw [onTmIso_two]
  exact Eq.trans (St.bind_ok (onTmIso_run ha)) rfl

theorem isoTimePart2_more {s r : Bytes} {v : Int} {fv : F64} {st : IsoS} {t' : TmF}
    (hp : parseIsoNumber s = .ok (v, fv, 58 :: r)) (ha : isoAdd p .minute v fv st.t = (.ok (), t')) :
    isoTimePart2 p s st = isoTimePart3 p r { st with t := t' } := by
  unfold isoTimePart2
  rw [hp, St.lift_ok_bind]
  simp only
  rw [onTmIso_two]
  exact Eq.trans (St.bind_ok (onTmIso_run ha)) rfl

theorem isoTimeLeft_run {s : Bytes} {v : Int} {fv : F64} {st : IsoS} {t' : TmF} (hf : st.haveField = false)
    (ha : isoAdd p .hour v fv st.t = (.ok (), t')) :
    isoTimeLeft p s 0 v fv st = (.ok .done, { st with t := t' }) ∧
    isoTimeLeft p s 58 v fv st = isoTimePart2 p s { st with t := t' } := by
  refine ⟨?_, ?_⟩
  all_goals
    unfold isoTimeLeft
    rw [St.get_bind, if_neg (by simp [hf]), onTmIso_two]
    refine Eq.trans (St.bind_ok (onTmIso_run ha)) ?_
    rfl

/-- The rest of the text is read to the end. -/
def TimeRest (p : Profile) (x : Bytes) (t t' : TmF) : Prop :=
  ∀ k, x.length < k → ∃ s, isoLoop p k x ⟨t, false, false⟩ = (.ok (), s) ∧ s.t = t'

theorem timeRest_of {x : Bytes} {t t' : TmF} {v : Int} {fv : F64} {e : Bytes} {st : IsoS} (ht : st.t = t')
    (h1 : ∃ y t, x = y :: t ∧ isDigit y = true) (hp : parseIsoNumber (x ++ e) = .ok (v, fv, e))
    (hn : isoNumber p (x ++ e) (isoUnit e).2 (isoUnit e).1 v fv ⟨t, false, false⟩ = (.ok .done, st)) :
    TimeRest p (x ++ e) t t' := by
  intro k hk
  obtain ⟨k', rfl⟩ : ∃ k', k = k' + 1 := ⟨k - 1, by omega⟩
  rw [isoLoop_number h1 hp hn]
  exact ⟨st, rfl, ht⟩

/-- Times with colons. -/
theorem coloned_run {h : Bytes} {r : Option (Bytes × Option (Bytes × Bytes))} (hok : (IsoTimePart.coloned h r).Ok)
    {t : TmF} {xs : List IsoItem} (hi : IAt t xs) (hfit : Fits (xs ++ (IsoTimePart.coloned h r).list)) :
    ∃ t', IAt t' (xs ++ (IsoTimePart.coloned h r).list) ∧ TimeRest p (IsoTimePart.coloned h r).text t t' := by
  obtain ⟨hall, h6⟩ := hok
  have hh : (IsoItem.mk h [] .hour).Ok := hall _ (by rcases r with - | ⟨m, - | d⟩ <;> simp [IsoTimePart.list])
  have fh : ∃ y' t, h = y' :: t ∧ isDigit y' = true := digits_first hh.1.1 (DigitsOf.ne hh.1 (by omega))
  have hfh : Fits (xs ++ [⟨h, [], .hour⟩]) := by
    rcases r with - | ⟨m, - | d⟩
    · exact hfit
    · exact Fits.init (ys := [_]) (by rw [List.append_assoc]; exact hfit)
    · exact Fits.init (ys := [_, _]) (by rw [List.append_assoc]; exact hfit)
  obtain ⟨t1, a1, i1⟩ := whole_add (p := p) hh (by decide) hi hfh
  rcases r with - | ⟨m, - | ⟨s, f⟩⟩
  · refine ⟨t1, i1, ?_⟩
    have hp := isoNum_whole (rest := []) hh.1 hh.2.2.1 (Stops.nil _) (by simp)
    have hw := isoWidth_digits (r := []) hh.1.1 (DigitsOf.ne hh.1 (by omega)) (Stops.nil _)
    have h6 := h6 rfl
    simp only [IsoTimePart.text]
    have := timeRest_of (p := p) (x := h) (e := []) (t := t) (t' := t1) (st := ⟨t1, false, false⟩) rfl fh hp (by
      unfold isoNumber
      rw [St.get_bind]
      simp (config := { decide := true }) only [isoUnit, isoTime, if_true, if_false, St.get_bind]
      rw [if_neg (by rw [hw]; simp [h6])]
      exact (isoTimeLeft_run rfl a1).1)
    simpa using this
  · have hm : (IsoItem.mk m [] .minute).Ok := hall _ (by simp [IsoTimePart.list])
    obtain ⟨t2, a2, i2⟩ := whole_add (p := p) hm (by decide) i1 (by rw [List.append_assoc]; exact hfit)
    rw [List.append_assoc] at i2
    refine ⟨t2, i2, ?_⟩
    have hp := isoNum_whole (rest := 58 :: m) hh.1 hh.2.2.1 (Stops.cons rfl) (by simp)
    have hp2 := isoNum_whole (rest := []) hm.1 hm.2.2.1 (Stops.nil _) (by simp)
    rw [List.append_nil] at hp2
    simp only [IsoTimePart.text]
    refine timeRest_of (p := p) (st := ⟨t2, false, false⟩) rfl fh hp ?_
    unfold isoNumber
    rw [St.get_bind]
    simp (config := { decide := true }) only [isoUnit, isoTime, if_true, if_false]
    rw [(isoTimeLeft_run rfl a1).2]
    exact isoTimePart2_run hp2 a2
  · have hm : (IsoItem.mk m [] .minute).Ok := hall _ (by simp [IsoTimePart.list])
    have hs : (IsoItem.mk s f .second).Ok := hall _ (by simp [IsoTimePart.list])
    obtain ⟨t2, a2, i2⟩ := whole_add (p := p) hm (by decide) i1 (Fits.init (ys := [_]) (by
      rw [List.append_assoc, List.append_assoc]; exact hfit))
    rw [List.append_assoc] at i2
    obtain ⟨q, hq, hqf⟩ := isoItem_number hs
    obtain ⟨t3, a3, i3⟩ := isoAdd_item (p := p) hs (Or.inr (by simp [isoTimeUnits])) (item_frac hs hqf) i2 (by
      rw [List.append_assoc]; exact hfit)
    rw [List.append_assoc] at i3
    refine ⟨t3, i3, ?_⟩
    have hp := isoNum_whole (rest := 58 :: (m ++ 58 :: (IsoItem.mk s f .second).number)) hh.1 hh.2.2.1 (Stops.cons rfl)
      (by simp)
    have hp2 := isoNum_whole (rest := 58 :: (IsoItem.mk s f .second).number) hm.1 hm.2.2.1 (Stops.cons rfl) (by simp)
    have hp3 := hq [] (Stops.nil _) (by simp)
    rw [List.append_nil] at hp3
    simp only [IsoTimePart.text]
    refine timeRest_of (p := p) (st := ⟨t3, false, false⟩) rfl fh hp ?_
    unfold isoNumber
    rw [St.get_bind]
    simp (config := { decide := true }) only [isoUnit, isoTime, if_true, if_false]
    rw [(isoTimeLeft_run rfl a1).2, isoTimePart2_more hp2 a2]
    exact isoTimePart3_run hp3 a3

/-- Times of six digits. -/
theorem packedTime_run {h m s f : Bytes} (hok : (IsoTimePart.packed h m s f).Ok)
    {t : TmF} {xs : List IsoItem} (hi : IAt t xs) (hfit : Fits (xs ++ (IsoTimePart.packed h m s f).list)) :
    ∃ t', IAt t' (xs ++ (IsoTimePart.packed h m s f).list) ∧ TimeRest p (IsoTimePart.packed h m s f).text t t' := by
  obtain ⟨hh, hm, hs, hf⟩ := hok
  have vh := value_lt hh.1
  have vm := value_lt hm.1
  have vs := value_lt hs.1
  have lh : h.length = 2 := by have := hh.2; omega
  have lm : m.length = 2 := by have := hm.2; omega
  have ls : s.length = 2 := by have := hs.2; omega
  rw [lh] at vh; rw [lm] at vm; rw [ls] at vs
  norm_num at vh vm vs
  have oh : (IsoItem.mk h [] .hour).Ok := whole_ok (by omega) (by omega) hh.1 (by omega)
  have om : (IsoItem.mk m [] .minute).Ok := whole_ok (by omega) (by omega) hm.1 (by omega)
  have os : (IsoItem.mk s f .second).Ok := ⟨⟨hs.1, by show 1 ≤ s.length; omega, by show s.length ≤ 10; omega⟩, hf,
    by show value s ≤ 2147483647; omega, fun _ => Or.inr (Or.inr (Or.inr ⟨rfl, by show value s ≤ 1000000; omega⟩))⟩
  obtain ⟨t1, a1, i1⟩ := whole_add (p := p) oh (by decide) hi (Fits.init (ys := [_, _]) (by rw [List.append_assoc]; exact hfit))
  obtain ⟨t2, a2, i2⟩ := whole_add (p := p) om (by decide) i1 (Fits.init (ys := [_]) (by
    rw [List.append_assoc, List.append_assoc]; exact hfit))
  rw [List.append_assoc] at i2
  have hD : DigitsOf 1 10 (h ++ (m ++ s)) := ⟨digits_append.2 ⟨hh.1, digits_append.2 ⟨hm.1, hs.1⟩⟩, by
    simp only [List.length_append]; omega, by simp only [List.length_append]; omega⟩
  have hval : value (h ++ (m ++ s)) = value h * 10000 + value m * 100 + value s := by
    rw [value_join _ (digits_append.2 ⟨hm.1, hs.1⟩), value_join _ hs.1]
    simp only [List.length_append, lm, ls]
    ring
  have oD : (IsoItem.mk (h ++ (m ++ s)) f .second).Ok := ⟨hD, hf, by
    show value (h ++ (m ++ s)) ≤ 2147483647; omega, fun _ => Or.inr (Or.inr (Or.inr ⟨rfl, by
    show value (h ++ (m ++ s)) ≤ 1000000; omega⟩))⟩
  obtain ⟨q, hq, hqf⟩ := isoItem_number oD
  obtain ⟨t3, a3, i3⟩ := isoAdd_item (p := p) os (Or.inr (by simp [isoTimeUnits])) (r := q) (item_frac oD hqf) i2 (by
    rw [List.append_assoc]; exact hfit)
  rw [List.append_assoc] at i3
  refine ⟨t3, i3, ?_⟩
  have hp := hq [] (Stops.nil _) (by simp)
  have et : (IsoTimePart.packed h m s f).text = (IsoItem.mk (h ++ (m ++ s)) f .second).number := by
    simp [IsoTimePart.text, IsoItem.number]
  have hw : isoWidth ((IsoItem.mk (h ++ (m ++ s)) f .second).number ++ []) = 6 := by
    unfold IsoItem.number
    rw [List.append_assoc, isoWidth_digits hD.1 (DigitsOf.ne hD (by omega))]
    · simp only [List.length_append]; omega
    · simp only
      split
      · exact Stops.nil _
      · exact Stops.cons rfl
  have b1 : addHour p (value h) t = (.ok (), t1) := drop_right zero_secs a1
  have b2 : addMin p (value m) t1 = (.ok (), t2) := drop_right zero_secs a2
  have q1 : Int.tdiv (value (h ++ (m ++ s)) : Int) 10000 = value h := by
    have := tdiv_or (value (h ++ (m ++ s)) : Int) 10000; omega
  have q2 : Int.tmod (Int.tdiv (value (h ++ (m ++ s)) : Int) 100) 100 = value m := by
    have := tdiv_or (value (h ++ (m ++ s)) : Int) 100
    have := tmod_or (Int.tdiv (value (h ++ (m ++ s)) : Int) 100) 100; omega
  have q3 : Int.tmod (value (h ++ (m ++ s)) : Int) 100 = value s := by
    have := tmod_or (value (h ++ (m ++ s)) : Int) 100; omega
  have fy := number_first oD []
  rw [List.append_nil] at fy
  have := timeRest_of (p := p) (t := t) (t' := t3) (st := ⟨t3, false, false⟩) rfl fy hp (by
    unfold isoNumber
    rw [St.get_bind]
    simp (config := { decide := true }) only [isoUnit, isoTime, if_true, if_false, St.get_bind]
    rw [if_pos ⟨hw, trivial⟩, q1, q2, q3]
    refine Eq.trans (St.bind_ok (onTmIso_run b1)) ?_
    refine Eq.trans (St.bind_ok (onTmIso_run b2)) ?_
    rw [onTmIso_two]
    exact Eq.trans (St.bind_ok (onTmIso_run a3)) rfl)
  rw [et]
  rwa [List.append_nil] at this

/-- Times in any form. -/
theorem isoTime_run {x : IsoTimePart} (h : x.Ok) {t : TmF} {xs : List IsoItem} (hi : IAt t xs) (hfit : Fits (xs ++ x.list)) :
    ∃ t', IAt t' (xs ++ x.list) ∧ TimeRest p x.text t t' := by
  cases x with
  | items l =>
    obtain ⟨st', g, hi, -⟩ := items_go (p := p) (st := ⟨t, false, false⟩) h hi hfit
    refine ⟨st'.t, hi, ?_⟩
    intro k hk
    simp only [IsoTimePart.text] at hk ⊢
    obtain ⟨f, hf, hg⟩ := g [] k hk
    rw [List.append_nil] at hg
    rw [hg]
    obtain ⟨f', rfl⟩ : ∃ f', f = f' + 1 := ⟨f - 1, by omega⟩
    exact ⟨st', rfl, rfl⟩
  | coloned a b => exact coloned_run h hi hfit
  | packed a b c d => exact packedTime_run h hi hfit

end Pg
