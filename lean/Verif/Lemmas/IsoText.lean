import Verif.Lemmas.IsoForms
import Verif.Lemmas.PartsText

/-! # Scanning and reading ISO 8601 intervals -/

namespace Pg
open Spec F64

variable {p : Profile}

theorem number_word {x : IsoItem} (h : x.Ok) : ∀ b ∈ x.number, isWordB b = true := by
  intro b hb
  unfold IsoItem.number at hb
  rcases List.mem_append.1 hb with hb | hb
  · exact digits_word h.1.1 b hb
  · split at hb
    · cases hb
    · rcases List.mem_cons.1 hb with rfl | hb
      · rfl
      · exact digits_word h.2.1.1 b hb

theorem items_word {l : List IsoItem} (h : ∀ x ∈ l, x.Ok) : ∀ b ∈ (l.map IsoItem.text).flatten, isWordB b = true := by
  intro b hb
  obtain ⟨w, hw, hb⟩ := List.mem_flatten.1 hb
  obtain ⟨x, hx, rfl⟩ := List.mem_map.1 hw
  unfold IsoItem.text at hb
  rcases List.mem_append.1 hb with hb | hb
  · exact number_word (h x hx) b hb
  · rw [List.mem_singleton] at hb
    subst hb
    cases x.unit <;> rfl

theorem sep_word {a b : Bytes} {c : Nat} (ha : ∀ x ∈ a, isWordB x = true) (hc : isWordB c = true)
    (hb : ∀ x ∈ b, isWordB x = true) : ∀ x ∈ a ++ c :: b, isWordB x = true := by
  intro x hx
  rcases List.mem_append.1 hx with hx | hx
  · exact ha x hx
  · rcases List.mem_cons.1 hx with rfl | hx
    · exact hc
    · exact hb x hx

theorem join_word {a b : Bytes} (ha : ∀ x ∈ a, isWordB x = true)
    (hb : ∀ x ∈ b, isWordB x = true) : ∀ x ∈ a ++ b, isWordB x = true := by
  intro x hx
  rcases List.mem_append.1 hx with hx | hx
  · exact ha x hx
  · exact hb x hx

theorem isoDate_word {d : IsoDatePart} (h : d.Ok) : ∀ b ∈ d.text, isWordB b = true := by
  cases d with
  | items l => exact items_word fun x hx => (h x hx).1
  | dashed y r =>
    obtain ⟨hall, -⟩ := h
    have hw : ∀ x ∈ (IsoDatePart.dashed y r).list, ∀ b ∈ x.digits, isWordB b = true := fun x hx =>
      digits_word (hall x hx).1.1
    rcases r with - | ⟨m, - | d⟩
    · exact hw ⟨y, [], .year⟩ (by simp [IsoDatePart.list])
    · exact sep_word (hw ⟨y, [], .year⟩ (by simp [IsoDatePart.list])) rfl (hw ⟨m, [], .month⟩ (by simp [IsoDatePart.list]))
    · exact sep_word (hw ⟨y, [], .year⟩ (by simp [IsoDatePart.list])) rfl
        (sep_word (hw ⟨m, [], .month⟩ (by simp [IsoDatePart.list])) rfl (hw ⟨d, [], .day⟩ (by simp [IsoDatePart.list])))
  | packed y m d =>
    exact join_word (digits_word h.1.1) (join_word (digits_word h.2.1.1) (digits_word h.2.2.1))

theorem isoTime_word {x : IsoTimePart} (h : x.Ok) : ∀ b ∈ x.text, isWordB b = true := by
  cases x with
  | items l => exact items_word fun x hx => (h x hx).1
  | coloned a r =>
    obtain ⟨hall, -⟩ := h
    have hw : ∀ x ∈ (IsoTimePart.coloned a r).list, ∀ b ∈ x.digits, isWordB b = true := fun x hx =>
      digits_word (hall x hx).1.1
    rcases r with - | ⟨m, - | ⟨s, f⟩⟩
    · exact hw ⟨a, [], .hour⟩ (by simp [IsoTimePart.list])
    · exact sep_word (hw ⟨a, [], .hour⟩ (by simp [IsoTimePart.list])) rfl (hw ⟨m, [], .minute⟩ (by simp [IsoTimePart.list]))
    · exact sep_word (hw ⟨a, [], .hour⟩ (by simp [IsoTimePart.list])) rfl
        (sep_word (hw ⟨m, [], .minute⟩ (by simp [IsoTimePart.list])) rfl
          (number_word (hall ⟨s, f, .second⟩ (by simp [IsoTimePart.list]))))
  | packed a m s f =>
    obtain ⟨h1, h2, h3, h4⟩ := h
    refine join_word (digits_word h1.1) (join_word (digits_word h2.1) (join_word (digits_word h3.1) ?_))
    simp only
    split
    · intro b hb; cases hb
    · intro b hb
      rcases List.mem_cons.1 hb with rfl | hb
      · rfl
      · exact digits_word h4.1 b hb

theorem items_first {l : List IsoItem} (h : ∀ x ∈ l, x.Ok) (ne : l ≠ []) (r : Bytes) :
    ∃ c t, (l.map IsoItem.text).flatten ++ r = c :: t ∧ isDigit c = true := by
  cases l with
  | nil => exact absurd rfl ne
  | cons x l =>
    obtain ⟨y, t, e, hy⟩ := number_first (h x (by simp)) ([x.unit.isoLetter] ++ ((l.map IsoItem.text).flatten ++ r))
    refine ⟨y, t, ?_, hy⟩
    rw [← e]
    simp [IsoItem.text]

theorem isoDate_first {d : IsoDatePart} (h : d.Ok) (ne : d.list ≠ []) (r : Bytes) :
    ∃ c t, d.text ++ r = c :: t ∧ isDigit c = true := by
  cases d with
  | items l => exact items_first (fun x hx => (h x hx).1) ne r
  | dashed y o =>
    have hy : DigitsOf 1 10 y := (h.1 ⟨y, [], .year⟩ (by rcases o with - | ⟨m, - | d⟩ <;> simp [IsoDatePart.list])).1
    rcases o with - | ⟨m, - | d⟩
    · exact digits_first' hy (by omega) r
    · simp only [IsoDatePart.text, List.append_assoc]; exact digits_first' hy (by omega) _
    · simp only [IsoDatePart.text, List.append_assoc]; exact digits_first' hy (by omega) _
  | packed y m d => simp only [IsoDatePart.text, List.append_assoc]; exact digits_first' h.1 (by omega) _

theorem isoTime_first {x : IsoTimePart} (h : x.Ok) (ne : x.list ≠ []) : ∃ c t, x.text = c :: t ∧ isDigit c = true := by
  cases x with
  | items l =>
    have := items_first (fun x hx => (h x hx).1) ne []
    rwa [List.append_nil] at this
  | coloned a o =>
    have ha : DigitsOf 1 10 a := (h.1 ⟨a, [], .hour⟩ (by rcases o with - | ⟨m, - | d⟩ <;> simp [IsoTimePart.list])).1
    rcases o with - | ⟨m, - | ⟨s, f⟩⟩
    · have := digits_first' ha (by omega) []
      rwa [List.append_nil] at this
    · exact digits_first' ha (by omega) _
    · exact digits_first' ha (by omega) _
  | packed y m d => exact digits_first' h.1 (by omega) _

/-- A text of the ISO form is one field for the scanner. -/
theorem iso_scan {X : Bytes} (u : TokenField) (hl : (80 :: X).length ≤ 128)
    (h : (∃ c t, X = c :: t ∧ (isDigit c = true ∨ c = 45)) ∨ ∃ c t, X = 84 :: c :: t ∧ (isDigit c = true ∨ c = 45))
    (hw : ∀ b ∈ X, isWordB b = true) : ∃ y r, isAlpha y = true ∧ scan u (80 :: X) = .ok [(.date, y :: r)] := by
  rcases h with ⟨c, t, e, hc⟩ | ⟨c, t, e, hc⟩
  · have := iso_scans u (w := [80]) (by unfold Letters; decide) (by simp) (by decide +kernel) e hc hw
    exact ⟨112, _, rfl, scan_of this (by simp) hl (by simp)⟩
  · subst e
    have := iso_scans u (w := [80, 84]) (by unfold Letters; decide) (by simp) (by decide +kernel) rfl hc
      (fun b hb => hw b (List.mem_cons_of_mem _ hb))
    exact ⟨112, _, rfl, scan_of this (by simp) hl (by simp)⟩

/-- The interval of an ISO text from its loop. -/
theorem iso_interval_run {style : IntervalStyle} {u : TokenField} {c : Caches} (hc : c.Ok) {X : Bytes} {y : Nat} {r : Bytes}
    (hy : isAlpha y = true) (hs : scan u (80 :: X) = .ok [(.date, y :: r)]) (hne : X ≠ []) {o : Res Unit} {i : IsoS}
    (hi : isoLoop p ((80 :: X).length + 1) X { t := ({}, 0) } = (o, i)) :
    Interval.tryFromStr p u c (80 :: X) (-1) style = o >>= fun _ => Interval.fromPgtime p i.t.1 i.t.2 := by
  obtain ⟨s', hrej, hst⟩ := iso_rejected (p := p) (style := style) (x := y :: r) rfl hy
  have hpos := List.length_pos_iff.2 hne
  have hlen : ¬ ((80 :: X).length < 2 ∨ (80 :: X).head? ≠ some 80) := by
    simp only [List.length_cons, List.head?_cons]
    simp; omega
  have hiso : decodeIsoInterval p (80 :: X) s' = (o, { s' with dType := .delta, t := i.t }) := by
    unfold decodeIsoInterval
    rw [St.mod_bind, if_neg hlen]
    refine Eq.trans (St.zoom_run (r := o) (t := i) ?_) rfl
    simp only [hst, List.drop_succ_cons, List.drop_zero]
    exact hi
  rw [interval_run p u hc (-1) style hs (r := o) (d := { s' with dType := .delta, t := i.t }) (w := ()) (by
    unfold St.orElse; rw [hrej]; simp only; exact noLook_run hiso)]
  cases o with
  | ok a =>
    rw [Res.bind_ok, Res.bind_ok, Interval.ofDec, if_pos rfl]
    simp only
    cases Interval.fromPgtime p i.t.1 i.t.2 with
    | ok a => rw [Res.bind_ok, Interval.adjustByTypmod, if_neg (by omega)]
    | err e => rfl
    | panic => rfl
  | err e => rfl
  | panic => rfl

/-- The interval of the fields. -/
theorem fromPgtime_totals {t : TmF} {M M' D D' W W' S S' : Int} (h : QInv t M M' D D' W W' S S') (b1 : M' ≤ 2147483647)
    (b3 : W' ≤ 2147483647) (b4 : S' ≤ 2147483647000000) :
    Interval.fromPgtime p t.1 t.2 = .ok ⟨M, D, W * 60000000 + S⟩ := by
  obtain ⟨m, m', d, d', w, w', s, s'⟩ := h
  unfold Abs2 at m' d' w' s'
  have e : ((t.1.hour * 60 + t.1.min) * 60 + t.1.sec) * 1000000 + t.2 = W * 60000000 + S := by rw [← w, ← s]; ring
  rw [← m, ← d, ← e]
  unfold Interval.fromPgtime
  simp only
  rw [if_neg (by omega), chk32_ok (by omega), Res.bind_ok, chk32_ok (by omega), Res.bind_ok,
    chk64_ok (by omega), Res.bind_ok, chk64_ok (by omega), Res.bind_ok,
    chk64_ok (by omega), Res.bind_ok, chk64_ok (by omega), Res.bind_ok]
  rfl

/-- Something that cannot follow: a minus sign, or a number with a wrong letter. -/
inductive BadItem (letters : List Nat) : Bytes → Prop
  | minus (rest : Bytes) : BadItem letters (45 :: rest)
  | letter (ds : Bytes) (c : Nat) (rest : Bytes) (hd : DigitsOf 1 10 ds) (hv : value ds ≤ 2147483647) (hc : isDigit c = false)
      (h46 : c ≠ 46) (h0 : c ≠ 0) (hl : c ∉ letters) : BadItem letters (ds ++ c :: rest)

theorem bad_fails {b : Bool} {x : Bytes} (h : BadItem (if b then [89, 77, 87, 68, 84, 45] else [72, 77, 83, 58]) x)
    {st : IsoS} (hd : st.datePart = b) {k : Nat} (hk : 0 < k) : ∃ s, isoLoop p k x st = (.err .invalid, s) := by
  obtain ⟨k, rfl⟩ : ∃ n, k = n + 1 := ⟨k - 1, by omega⟩
  cases h with
  | minus rest =>
    refine ⟨st, ?_⟩
    rw [isoLoop]
    simp only
    rw [if_neg (by omega)]
    rfl
  | letter ds c rest hds hv hc h46 h0 hl =>
    have hp := isoNum_whole (rest := c :: rest) hds hv (Stops.cons hc) (by simpa using h46)
    refine ⟨st, ?_⟩
    rw [isoLoop_number (digits_first hds.1 (DigitsOf.ne hds (by omega))) hp (o := (.err .invalid, st))]
    · rfl
    · unfold isoNumber
      rw [St.get_bind]
      cases b with
      | true =>
        simp only [if_true, List.mem_cons, List.not_mem_nil, or_false, not_or] at hl
        rw [if_pos hd]
        simp only [isoUnit, isoDate, hl, h0, if_false, or_self]
        exact congrFun (if_neg hl.1) st
      | false =>
        simp only [Bool.false_eq_true, if_false, List.mem_cons, List.not_mem_nil, or_false, not_or] at hl
        rw [if_neg (by simp [hd])]
        simp only [isoUnit, isoTime, hl, h0, if_false]
        exact congrFun (if_neg hl.1) st

end Pg
